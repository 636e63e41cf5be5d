import Verif.Validation.Vectors
/-!
# Metadata policy test vectors 701 to 1400

Generated by `validation/gen_vectors.py`.
-/

namespace Oidfed.Validation
open Oidfed

/-- The vectors. -/
def vectors2 : List TestVector := [
  ⟨701, .obj [("grant_types", .obj [("add", .arr [])])], .obj [("grant_types", .obj [("subset_of", .arr [.str "authorization_code", .str "refresh_token"])])], some (.obj [("grant_types", .obj [("add", .arr []), ("subset_of", .arr [.str "authorization_code", .str "refresh_token"])])]), .obj [("grant_types", .arr [.str "password"])], .obj [("grant_types", .arr [])], false⟩,
  ⟨702, .obj [("grant_types", .obj [("add", .arr []), ("essential", .bool true)])], .obj [("grant_types", .obj [("subset_of", .arr [.str "authorization_code", .str "refresh_token"]), ("essential", .bool true)])], some (.obj [("grant_types", .obj [("add", .arr []), ("subset_of", .arr [.str "authorization_code", .str "refresh_token"]), ("essential", .bool true)])]), .obj [("grant_types", .arr [.str "authorization_code", .str "refresh_token"])], .obj [("grant_types", .arr [.str "authorization_code", .str "refresh_token"])], false⟩,
  ⟨703, .obj [("grant_types", .obj [("add", .arr []), ("essential", .bool true)])], .obj [("grant_types", .obj [("subset_of", .arr [.str "authorization_code", .str "refresh_token"])])], some (.obj [("grant_types", .obj [("add", .arr []), ("subset_of", .arr [.str "authorization_code", .str "refresh_token"]), ("essential", .bool true)])]), .obj [("grant_types", .arr [.str "authorization_code", .str "refresh_token"])], .obj [("grant_types", .arr [.str "authorization_code", .str "refresh_token"])], false⟩,
  ⟨704, .obj [("grant_types", .obj [("add", .arr [])])], .obj [("grant_types", .obj [("subset_of", .arr [.str "authorization_code", .str "refresh_token"]), ("essential", .bool true)])], some (.obj [("grant_types", .obj [("add", .arr []), ("subset_of", .arr [.str "authorization_code", .str "refresh_token"]), ("essential", .bool true)])]), .obj [("grant_types", .arr [.str "authorization_code", .str "refresh_token"])], .obj [("grant_types", .arr [.str "authorization_code", .str "refresh_token"])], false⟩,
  ⟨705, .obj [("grant_types", .obj [("add", .arr [])])], .obj [("grant_types", .obj [("subset_of", .arr [.str "authorization_code", .str "refresh_token"])])], some (.obj [("grant_types", .obj [("add", .arr []), ("subset_of", .arr [.str "authorization_code", .str "refresh_token"])])]), .obj [("grant_types", .arr [.str "authorization_code", .str "refresh_token"])], .obj [("grant_types", .arr [.str "authorization_code", .str "refresh_token"])], false⟩,
  ⟨706, .obj [("grant_types", .obj [("add", .arr []), ("essential", .bool true)])], .obj [("grant_types", .obj [("subset_of", .arr [.str "authorization_code", .str "refresh_token"]), ("essential", .bool true)])], some (.obj [("grant_types", .obj [("add", .arr []), ("subset_of", .arr [.str "authorization_code", .str "refresh_token"]), ("essential", .bool true)])]), .obj [("grant_types", .arr [.str "authorization_code", .str "password"])], .obj [("grant_types", .arr [.str "authorization_code"])], false⟩,
  ⟨707, .obj [("grant_types", .obj [("add", .arr []), ("essential", .bool true)])], .obj [("grant_types", .obj [("subset_of", .arr [.str "authorization_code", .str "refresh_token"])])], some (.obj [("grant_types", .obj [("add", .arr []), ("subset_of", .arr [.str "authorization_code", .str "refresh_token"]), ("essential", .bool true)])]), .obj [("grant_types", .arr [.str "authorization_code", .str "password"])], .obj [("grant_types", .arr [.str "authorization_code"])], false⟩,
  ⟨708, .obj [("grant_types", .obj [("add", .arr [])])], .obj [("grant_types", .obj [("subset_of", .arr [.str "authorization_code", .str "refresh_token"]), ("essential", .bool true)])], some (.obj [("grant_types", .obj [("add", .arr []), ("subset_of", .arr [.str "authorization_code", .str "refresh_token"]), ("essential", .bool true)])]), .obj [("grant_types", .arr [.str "authorization_code", .str "password"])], .obj [("grant_types", .arr [.str "authorization_code"])], false⟩,
  ⟨709, .obj [("grant_types", .obj [("add", .arr [])])], .obj [("grant_types", .obj [("subset_of", .arr [.str "authorization_code", .str "refresh_token"])])], some (.obj [("grant_types", .obj [("add", .arr []), ("subset_of", .arr [.str "authorization_code", .str "refresh_token"])])]), .obj [("grant_types", .arr [.str "authorization_code", .str "password"])], .obj [("grant_types", .arr [.str "authorization_code"])], false⟩,
  ⟨710, .obj [("grant_types", .obj [("add", .arr []), ("essential", .bool true)])], .obj [("grant_types", .obj [("subset_of", .arr [.str "authorization_code", .str "refresh_token"]), ("essential", .bool true)])], some (.obj [("grant_types", .obj [("add", .arr []), ("subset_of", .arr [.str "authorization_code", .str "refresh_token"]), ("essential", .bool true)])]), .obj [("grant_types", .arr [])], .obj [("grant_types", .arr [])], false⟩,
  ⟨711, .obj [("grant_types", .obj [("add", .arr []), ("essential", .bool true)])], .obj [("grant_types", .obj [("subset_of", .arr [.str "authorization_code", .str "refresh_token"])])], some (.obj [("grant_types", .obj [("add", .arr []), ("subset_of", .arr [.str "authorization_code", .str "refresh_token"]), ("essential", .bool true)])]), .obj [("grant_types", .arr [])], .obj [("grant_types", .arr [])], false⟩,
  ⟨712, .obj [("grant_types", .obj [("add", .arr [])])], .obj [("grant_types", .obj [("subset_of", .arr [.str "authorization_code", .str "refresh_token"]), ("essential", .bool true)])], some (.obj [("grant_types", .obj [("add", .arr []), ("subset_of", .arr [.str "authorization_code", .str "refresh_token"]), ("essential", .bool true)])]), .obj [("grant_types", .arr [])], .obj [("grant_types", .arr [])], false⟩,
  ⟨713, .obj [("grant_types", .obj [("add", .arr [])])], .obj [("grant_types", .obj [("subset_of", .arr [.str "authorization_code", .str "refresh_token"])])], some (.obj [("grant_types", .obj [("add", .arr []), ("subset_of", .arr [.str "authorization_code", .str "refresh_token"])])]), .obj [("grant_types", .arr [])], .obj [("grant_types", .arr [])], false⟩,
  ⟨714, .obj [("grant_types", .obj [("add", .arr []), ("essential", .bool true)])], .obj [("grant_types", .obj [("subset_of", .arr [.str "authorization_code", .str "refresh_token"]), ("essential", .bool true)])], some (.obj [("grant_types", .obj [("add", .arr []), ("subset_of", .arr [.str "authorization_code", .str "refresh_token"]), ("essential", .bool true)])]), .obj [], .obj [("grant_types", .arr [])], false⟩,
  ⟨715, .obj [("grant_types", .obj [("add", .arr []), ("essential", .bool true)])], .obj [("grant_types", .obj [("subset_of", .arr [.str "authorization_code", .str "refresh_token"])])], some (.obj [("grant_types", .obj [("add", .arr []), ("subset_of", .arr [.str "authorization_code", .str "refresh_token"]), ("essential", .bool true)])]), .obj [], .obj [("grant_types", .arr [])], false⟩,
  ⟨716, .obj [("grant_types", .obj [("add", .arr [])])], .obj [("grant_types", .obj [("subset_of", .arr [.str "authorization_code", .str "refresh_token"]), ("essential", .bool true)])], some (.obj [("grant_types", .obj [("add", .arr []), ("subset_of", .arr [.str "authorization_code", .str "refresh_token"]), ("essential", .bool true)])]), .obj [], .obj [("grant_types", .arr [])], false⟩,
  ⟨717, .obj [("grant_types", .obj [("add", .arr [])])], .obj [("grant_types", .obj [("subset_of", .arr [.str "authorization_code", .str "refresh_token"])])], some (.obj [("grant_types", .obj [("add", .arr []), ("subset_of", .arr [.str "authorization_code", .str "refresh_token"])])]), .obj [], .obj [("grant_types", .arr [])], false⟩,
  ⟨718, .obj [("grant_types", .obj [("add", .arr [.str "authorization_code"]), ("essential", .bool true)])], .obj [("grant_types", .obj [("subset_of", .arr [.str "authorization_code", .str "refresh_token"]), ("essential", .bool true)])], some (.obj [("grant_types", .obj [("add", .arr [.str "authorization_code"]), ("subset_of", .arr [.str "authorization_code", .str "refresh_token"]), ("essential", .bool true)])]), .obj [("grant_types", .arr [.str "authorization_code"])], .obj [("grant_types", .arr [.str "authorization_code"])], false⟩,
  ⟨719, .obj [("grant_types", .obj [("add", .arr [.str "authorization_code"]), ("essential", .bool true)])], .obj [("grant_types", .obj [("subset_of", .arr [.str "authorization_code", .str "refresh_token"])])], some (.obj [("grant_types", .obj [("add", .arr [.str "authorization_code"]), ("subset_of", .arr [.str "authorization_code", .str "refresh_token"]), ("essential", .bool true)])]), .obj [("grant_types", .arr [.str "authorization_code"])], .obj [("grant_types", .arr [.str "authorization_code"])], false⟩,
  ⟨720, .obj [("grant_types", .obj [("add", .arr [.str "authorization_code"])])], .obj [("grant_types", .obj [("subset_of", .arr [.str "authorization_code", .str "refresh_token"]), ("essential", .bool true)])], some (.obj [("grant_types", .obj [("add", .arr [.str "authorization_code"]), ("subset_of", .arr [.str "authorization_code", .str "refresh_token"]), ("essential", .bool true)])]), .obj [("grant_types", .arr [.str "authorization_code"])], .obj [("grant_types", .arr [.str "authorization_code"])], false⟩,
  ⟨721, .obj [("grant_types", .obj [("add", .arr [.str "authorization_code"])])], .obj [("grant_types", .obj [("subset_of", .arr [.str "authorization_code", .str "refresh_token"])])], some (.obj [("grant_types", .obj [("add", .arr [.str "authorization_code"]), ("subset_of", .arr [.str "authorization_code", .str "refresh_token"])])]), .obj [("grant_types", .arr [.str "authorization_code"])], .obj [("grant_types", .arr [.str "authorization_code"])], false⟩,
  ⟨722, .obj [("grant_types", .obj [("add", .arr [.str "authorization_code"]), ("essential", .bool true)])], .obj [("grant_types", .obj [("subset_of", .arr [.str "authorization_code", .str "refresh_token"]), ("essential", .bool true)])], some (.obj [("grant_types", .obj [("add", .arr [.str "authorization_code"]), ("subset_of", .arr [.str "authorization_code", .str "refresh_token"]), ("essential", .bool true)])]), .obj [("grant_types", .arr [.str "password"])], .obj [("grant_types", .arr [.str "authorization_code"])], false⟩,
  ⟨723, .obj [("grant_types", .obj [("add", .arr [.str "authorization_code"]), ("essential", .bool true)])], .obj [("grant_types", .obj [("subset_of", .arr [.str "authorization_code", .str "refresh_token"])])], some (.obj [("grant_types", .obj [("add", .arr [.str "authorization_code"]), ("subset_of", .arr [.str "authorization_code", .str "refresh_token"]), ("essential", .bool true)])]), .obj [("grant_types", .arr [.str "password"])], .obj [("grant_types", .arr [.str "authorization_code"])], false⟩,
  ⟨724, .obj [("grant_types", .obj [("add", .arr [.str "authorization_code"])])], .obj [("grant_types", .obj [("subset_of", .arr [.str "authorization_code", .str "refresh_token"]), ("essential", .bool true)])], some (.obj [("grant_types", .obj [("add", .arr [.str "authorization_code"]), ("subset_of", .arr [.str "authorization_code", .str "refresh_token"]), ("essential", .bool true)])]), .obj [("grant_types", .arr [.str "password"])], .obj [("grant_types", .arr [.str "authorization_code"])], false⟩,
  ⟨725, .obj [("grant_types", .obj [("add", .arr [.str "authorization_code"])])], .obj [("grant_types", .obj [("subset_of", .arr [.str "authorization_code", .str "refresh_token"])])], some (.obj [("grant_types", .obj [("add", .arr [.str "authorization_code"]), ("subset_of", .arr [.str "authorization_code", .str "refresh_token"])])]), .obj [("grant_types", .arr [.str "password"])], .obj [("grant_types", .arr [.str "authorization_code"])], false⟩,
  ⟨726, .obj [("grant_types", .obj [("add", .arr [.str "authorization_code"]), ("essential", .bool true)])], .obj [("grant_types", .obj [("subset_of", .arr [.str "authorization_code", .str "refresh_token"]), ("essential", .bool true)])], some (.obj [("grant_types", .obj [("add", .arr [.str "authorization_code"]), ("subset_of", .arr [.str "authorization_code", .str "refresh_token"]), ("essential", .bool true)])]), .obj [("grant_types", .arr [.str "authorization_code", .str "refresh_token"])], .obj [("grant_types", .arr [.str "authorization_code", .str "refresh_token"])], false⟩,
  ⟨727, .obj [("grant_types", .obj [("add", .arr [.str "authorization_code"]), ("essential", .bool true)])], .obj [("grant_types", .obj [("subset_of", .arr [.str "authorization_code", .str "refresh_token"])])], some (.obj [("grant_types", .obj [("add", .arr [.str "authorization_code"]), ("subset_of", .arr [.str "authorization_code", .str "refresh_token"]), ("essential", .bool true)])]), .obj [("grant_types", .arr [.str "authorization_code", .str "refresh_token"])], .obj [("grant_types", .arr [.str "authorization_code", .str "refresh_token"])], false⟩,
  ⟨728, .obj [("grant_types", .obj [("add", .arr [.str "authorization_code"])])], .obj [("grant_types", .obj [("subset_of", .arr [.str "authorization_code", .str "refresh_token"]), ("essential", .bool true)])], some (.obj [("grant_types", .obj [("add", .arr [.str "authorization_code"]), ("subset_of", .arr [.str "authorization_code", .str "refresh_token"]), ("essential", .bool true)])]), .obj [("grant_types", .arr [.str "authorization_code", .str "refresh_token"])], .obj [("grant_types", .arr [.str "authorization_code", .str "refresh_token"])], false⟩,
  ⟨729, .obj [("grant_types", .obj [("add", .arr [.str "authorization_code"])])], .obj [("grant_types", .obj [("subset_of", .arr [.str "authorization_code", .str "refresh_token"])])], some (.obj [("grant_types", .obj [("add", .arr [.str "authorization_code"]), ("subset_of", .arr [.str "authorization_code", .str "refresh_token"])])]), .obj [("grant_types", .arr [.str "authorization_code", .str "refresh_token"])], .obj [("grant_types", .arr [.str "authorization_code", .str "refresh_token"])], false⟩,
  ⟨730, .obj [("grant_types", .obj [("add", .arr [.str "authorization_code"]), ("essential", .bool true)])], .obj [("grant_types", .obj [("subset_of", .arr [.str "authorization_code", .str "refresh_token"]), ("essential", .bool true)])], some (.obj [("grant_types", .obj [("add", .arr [.str "authorization_code"]), ("subset_of", .arr [.str "authorization_code", .str "refresh_token"]), ("essential", .bool true)])]), .obj [("grant_types", .arr [.str "authorization_code", .str "password"])], .obj [("grant_types", .arr [.str "authorization_code"])], false⟩,
  ⟨731, .obj [("grant_types", .obj [("add", .arr [.str "authorization_code"]), ("essential", .bool true)])], .obj [("grant_types", .obj [("subset_of", .arr [.str "authorization_code", .str "refresh_token"])])], some (.obj [("grant_types", .obj [("add", .arr [.str "authorization_code"]), ("subset_of", .arr [.str "authorization_code", .str "refresh_token"]), ("essential", .bool true)])]), .obj [("grant_types", .arr [.str "authorization_code", .str "password"])], .obj [("grant_types", .arr [.str "authorization_code"])], false⟩,
  ⟨732, .obj [("grant_types", .obj [("add", .arr [.str "authorization_code"])])], .obj [("grant_types", .obj [("subset_of", .arr [.str "authorization_code", .str "refresh_token"]), ("essential", .bool true)])], some (.obj [("grant_types", .obj [("add", .arr [.str "authorization_code"]), ("subset_of", .arr [.str "authorization_code", .str "refresh_token"]), ("essential", .bool true)])]), .obj [("grant_types", .arr [.str "authorization_code", .str "password"])], .obj [("grant_types", .arr [.str "authorization_code"])], false⟩,
  ⟨733, .obj [("grant_types", .obj [("add", .arr [.str "authorization_code"])])], .obj [("grant_types", .obj [("subset_of", .arr [.str "authorization_code", .str "refresh_token"])])], some (.obj [("grant_types", .obj [("add", .arr [.str "authorization_code"]), ("subset_of", .arr [.str "authorization_code", .str "refresh_token"])])]), .obj [("grant_types", .arr [.str "authorization_code", .str "password"])], .obj [("grant_types", .arr [.str "authorization_code"])], false⟩,
  ⟨734, .obj [("grant_types", .obj [("add", .arr [.str "authorization_code"]), ("essential", .bool true)])], .obj [("grant_types", .obj [("subset_of", .arr [.str "authorization_code", .str "refresh_token"]), ("essential", .bool true)])], some (.obj [("grant_types", .obj [("add", .arr [.str "authorization_code"]), ("subset_of", .arr [.str "authorization_code", .str "refresh_token"]), ("essential", .bool true)])]), .obj [("grant_types", .arr [])], .obj [("grant_types", .arr [.str "authorization_code"])], false⟩,
  ⟨735, .obj [("grant_types", .obj [("add", .arr [.str "authorization_code"]), ("essential", .bool true)])], .obj [("grant_types", .obj [("subset_of", .arr [.str "authorization_code", .str "refresh_token"])])], some (.obj [("grant_types", .obj [("add", .arr [.str "authorization_code"]), ("subset_of", .arr [.str "authorization_code", .str "refresh_token"]), ("essential", .bool true)])]), .obj [("grant_types", .arr [])], .obj [("grant_types", .arr [.str "authorization_code"])], false⟩,
  ⟨736, .obj [("grant_types", .obj [("add", .arr [.str "authorization_code"])])], .obj [("grant_types", .obj [("subset_of", .arr [.str "authorization_code", .str "refresh_token"]), ("essential", .bool true)])], some (.obj [("grant_types", .obj [("add", .arr [.str "authorization_code"]), ("subset_of", .arr [.str "authorization_code", .str "refresh_token"]), ("essential", .bool true)])]), .obj [("grant_types", .arr [])], .obj [("grant_types", .arr [.str "authorization_code"])], false⟩,
  ⟨737, .obj [("grant_types", .obj [("add", .arr [.str "authorization_code"])])], .obj [("grant_types", .obj [("subset_of", .arr [.str "authorization_code", .str "refresh_token"])])], some (.obj [("grant_types", .obj [("add", .arr [.str "authorization_code"]), ("subset_of", .arr [.str "authorization_code", .str "refresh_token"])])]), .obj [("grant_types", .arr [])], .obj [("grant_types", .arr [.str "authorization_code"])], false⟩,
  ⟨738, .obj [("grant_types", .obj [("add", .arr [.str "authorization_code"]), ("essential", .bool true)])], .obj [("grant_types", .obj [("subset_of", .arr [.str "authorization_code", .str "refresh_token"]), ("essential", .bool true)])], some (.obj [("grant_types", .obj [("add", .arr [.str "authorization_code"]), ("subset_of", .arr [.str "authorization_code", .str "refresh_token"]), ("essential", .bool true)])]), .obj [], .obj [("grant_types", .arr [.str "authorization_code"])], false⟩,
  ⟨739, .obj [("grant_types", .obj [("add", .arr [.str "authorization_code"]), ("essential", .bool true)])], .obj [("grant_types", .obj [("subset_of", .arr [.str "authorization_code", .str "refresh_token"])])], some (.obj [("grant_types", .obj [("add", .arr [.str "authorization_code"]), ("subset_of", .arr [.str "authorization_code", .str "refresh_token"]), ("essential", .bool true)])]), .obj [], .obj [("grant_types", .arr [.str "authorization_code"])], false⟩,
  ⟨740, .obj [("grant_types", .obj [("add", .arr [.str "authorization_code"])])], .obj [("grant_types", .obj [("subset_of", .arr [.str "authorization_code", .str "refresh_token"]), ("essential", .bool true)])], some (.obj [("grant_types", .obj [("add", .arr [.str "authorization_code"]), ("subset_of", .arr [.str "authorization_code", .str "refresh_token"]), ("essential", .bool true)])]), .obj [], .obj [("grant_types", .arr [.str "authorization_code"])], false⟩,
  ⟨741, .obj [("grant_types", .obj [("add", .arr [.str "authorization_code"])])], .obj [("grant_types", .obj [("subset_of", .arr [.str "authorization_code", .str "refresh_token"])])], some (.obj [("grant_types", .obj [("add", .arr [.str "authorization_code"]), ("subset_of", .arr [.str "authorization_code", .str "refresh_token"])])]), .obj [], .obj [("grant_types", .arr [.str "authorization_code"])], false⟩,
  ⟨742, .obj [("grant_types", .obj [("add", .arr []), ("essential", .bool true)])], .obj [("grant_types", .obj [("superset_of", .arr [.str "authorization_code"]), ("essential", .bool true)])], some (.obj [("grant_types", .obj [("add", .arr []), ("superset_of", .arr [.str "authorization_code"]), ("essential", .bool true)])]), .obj [("grant_types", .arr [.str "authorization_code"])], .obj [("grant_types", .arr [.str "authorization_code"])], false⟩,
  ⟨743, .obj [("grant_types", .obj [("add", .arr []), ("essential", .bool true)])], .obj [("grant_types", .obj [("superset_of", .arr [.str "authorization_code"])])], some (.obj [("grant_types", .obj [("add", .arr []), ("superset_of", .arr [.str "authorization_code"]), ("essential", .bool true)])]), .obj [("grant_types", .arr [.str "authorization_code"])], .obj [("grant_types", .arr [.str "authorization_code"])], false⟩,
  ⟨744, .obj [("grant_types", .obj [("add", .arr [])])], .obj [("grant_types", .obj [("superset_of", .arr [.str "authorization_code"]), ("essential", .bool true)])], some (.obj [("grant_types", .obj [("add", .arr []), ("superset_of", .arr [.str "authorization_code"]), ("essential", .bool true)])]), .obj [("grant_types", .arr [.str "authorization_code"])], .obj [("grant_types", .arr [.str "authorization_code"])], false⟩,
  ⟨745, .obj [("grant_types", .obj [("add", .arr [])])], .obj [("grant_types", .obj [("superset_of", .arr [.str "authorization_code"])])], some (.obj [("grant_types", .obj [("add", .arr []), ("superset_of", .arr [.str "authorization_code"])])]), .obj [("grant_types", .arr [.str "authorization_code"])], .obj [("grant_types", .arr [.str "authorization_code"])], false⟩,
  ⟨746, .obj [("grant_types", .obj [("add", .arr []), ("essential", .bool true)])], .obj [("grant_types", .obj [("superset_of", .arr [.str "authorization_code"]), ("essential", .bool true)])], some (.obj [("grant_types", .obj [("add", .arr []), ("superset_of", .arr [.str "authorization_code"]), ("essential", .bool true)])]), .obj [("grant_types", .arr [.str "password"])], .obj [], true⟩,
  ⟨747, .obj [("grant_types", .obj [("add", .arr []), ("essential", .bool true)])], .obj [("grant_types", .obj [("superset_of", .arr [.str "authorization_code"])])], some (.obj [("grant_types", .obj [("add", .arr []), ("superset_of", .arr [.str "authorization_code"]), ("essential", .bool true)])]), .obj [("grant_types", .arr [.str "password"])], .obj [], true⟩,
  ⟨748, .obj [("grant_types", .obj [("add", .arr [])])], .obj [("grant_types", .obj [("superset_of", .arr [.str "authorization_code"]), ("essential", .bool true)])], some (.obj [("grant_types", .obj [("add", .arr []), ("superset_of", .arr [.str "authorization_code"]), ("essential", .bool true)])]), .obj [("grant_types", .arr [.str "password"])], .obj [], true⟩,
  ⟨749, .obj [("grant_types", .obj [("add", .arr [])])], .obj [("grant_types", .obj [("superset_of", .arr [.str "authorization_code"])])], some (.obj [("grant_types", .obj [("add", .arr []), ("superset_of", .arr [.str "authorization_code"])])]), .obj [("grant_types", .arr [.str "password"])], .obj [], true⟩,
  ⟨750, .obj [("grant_types", .obj [("add", .arr []), ("essential", .bool true)])], .obj [("grant_types", .obj [("superset_of", .arr [.str "authorization_code"]), ("essential", .bool true)])], some (.obj [("grant_types", .obj [("add", .arr []), ("superset_of", .arr [.str "authorization_code"]), ("essential", .bool true)])]), .obj [("grant_types", .arr [.str "authorization_code", .str "refresh_token"])], .obj [("grant_types", .arr [.str "authorization_code", .str "refresh_token"])], false⟩,
  ⟨751, .obj [("grant_types", .obj [("add", .arr []), ("essential", .bool true)])], .obj [("grant_types", .obj [("superset_of", .arr [.str "authorization_code"])])], some (.obj [("grant_types", .obj [("add", .arr []), ("superset_of", .arr [.str "authorization_code"]), ("essential", .bool true)])]), .obj [("grant_types", .arr [.str "authorization_code", .str "refresh_token"])], .obj [("grant_types", .arr [.str "authorization_code", .str "refresh_token"])], false⟩,
  ⟨752, .obj [("grant_types", .obj [("add", .arr [])])], .obj [("grant_types", .obj [("superset_of", .arr [.str "authorization_code"]), ("essential", .bool true)])], some (.obj [("grant_types", .obj [("add", .arr []), ("superset_of", .arr [.str "authorization_code"]), ("essential", .bool true)])]), .obj [("grant_types", .arr [.str "authorization_code", .str "refresh_token"])], .obj [("grant_types", .arr [.str "authorization_code", .str "refresh_token"])], false⟩,
  ⟨753, .obj [("grant_types", .obj [("add", .arr [])])], .obj [("grant_types", .obj [("superset_of", .arr [.str "authorization_code"])])], some (.obj [("grant_types", .obj [("add", .arr []), ("superset_of", .arr [.str "authorization_code"])])]), .obj [("grant_types", .arr [.str "authorization_code", .str "refresh_token"])], .obj [("grant_types", .arr [.str "authorization_code", .str "refresh_token"])], false⟩,
  ⟨754, .obj [("grant_types", .obj [("add", .arr []), ("essential", .bool true)])], .obj [("grant_types", .obj [("superset_of", .arr [.str "authorization_code"]), ("essential", .bool true)])], some (.obj [("grant_types", .obj [("add", .arr []), ("superset_of", .arr [.str "authorization_code"]), ("essential", .bool true)])]), .obj [("grant_types", .arr [.str "authorization_code", .str "password"])], .obj [("grant_types", .arr [.str "authorization_code", .str "password"])], false⟩,
  ⟨755, .obj [("grant_types", .obj [("add", .arr []), ("essential", .bool true)])], .obj [("grant_types", .obj [("superset_of", .arr [.str "authorization_code"])])], some (.obj [("grant_types", .obj [("add", .arr []), ("superset_of", .arr [.str "authorization_code"]), ("essential", .bool true)])]), .obj [("grant_types", .arr [.str "authorization_code", .str "password"])], .obj [("grant_types", .arr [.str "authorization_code", .str "password"])], false⟩,
  ⟨756, .obj [("grant_types", .obj [("add", .arr [])])], .obj [("grant_types", .obj [("superset_of", .arr [.str "authorization_code"]), ("essential", .bool true)])], some (.obj [("grant_types", .obj [("add", .arr []), ("superset_of", .arr [.str "authorization_code"]), ("essential", .bool true)])]), .obj [("grant_types", .arr [.str "authorization_code", .str "password"])], .obj [("grant_types", .arr [.str "authorization_code", .str "password"])], false⟩,
  ⟨757, .obj [("grant_types", .obj [("add", .arr [])])], .obj [("grant_types", .obj [("superset_of", .arr [.str "authorization_code"])])], some (.obj [("grant_types", .obj [("add", .arr []), ("superset_of", .arr [.str "authorization_code"])])]), .obj [("grant_types", .arr [.str "authorization_code", .str "password"])], .obj [("grant_types", .arr [.str "authorization_code", .str "password"])], false⟩,
  ⟨758, .obj [("grant_types", .obj [("add", .arr []), ("essential", .bool true)])], .obj [("grant_types", .obj [("superset_of", .arr [.str "authorization_code"]), ("essential", .bool true)])], some (.obj [("grant_types", .obj [("add", .arr []), ("superset_of", .arr [.str "authorization_code"]), ("essential", .bool true)])]), .obj [("grant_types", .arr [])], .obj [], true⟩,
  ⟨759, .obj [("grant_types", .obj [("add", .arr []), ("essential", .bool true)])], .obj [("grant_types", .obj [("superset_of", .arr [.str "authorization_code"])])], some (.obj [("grant_types", .obj [("add", .arr []), ("superset_of", .arr [.str "authorization_code"]), ("essential", .bool true)])]), .obj [("grant_types", .arr [])], .obj [], true⟩,
  ⟨760, .obj [("grant_types", .obj [("add", .arr [])])], .obj [("grant_types", .obj [("superset_of", .arr [.str "authorization_code"]), ("essential", .bool true)])], some (.obj [("grant_types", .obj [("add", .arr []), ("superset_of", .arr [.str "authorization_code"]), ("essential", .bool true)])]), .obj [("grant_types", .arr [])], .obj [], true⟩,
  ⟨761, .obj [("grant_types", .obj [("add", .arr [])])], .obj [("grant_types", .obj [("superset_of", .arr [.str "authorization_code"])])], some (.obj [("grant_types", .obj [("add", .arr []), ("superset_of", .arr [.str "authorization_code"])])]), .obj [("grant_types", .arr [])], .obj [], true⟩,
  ⟨762, .obj [("grant_types", .obj [("add", .arr []), ("essential", .bool true)])], .obj [("grant_types", .obj [("superset_of", .arr [.str "authorization_code"]), ("essential", .bool true)])], some (.obj [("grant_types", .obj [("add", .arr []), ("superset_of", .arr [.str "authorization_code"]), ("essential", .bool true)])]), .obj [], .obj [], true⟩,
  ⟨763, .obj [("grant_types", .obj [("add", .arr []), ("essential", .bool true)])], .obj [("grant_types", .obj [("superset_of", .arr [.str "authorization_code"])])], some (.obj [("grant_types", .obj [("add", .arr []), ("superset_of", .arr [.str "authorization_code"]), ("essential", .bool true)])]), .obj [], .obj [], true⟩,
  ⟨764, .obj [("grant_types", .obj [("add", .arr [])])], .obj [("grant_types", .obj [("superset_of", .arr [.str "authorization_code"]), ("essential", .bool true)])], some (.obj [("grant_types", .obj [("add", .arr []), ("superset_of", .arr [.str "authorization_code"]), ("essential", .bool true)])]), .obj [], .obj [], true⟩,
  ⟨765, .obj [("grant_types", .obj [("add", .arr [])])], .obj [("grant_types", .obj [("superset_of", .arr [.str "authorization_code"])])], some (.obj [("grant_types", .obj [("add", .arr []), ("superset_of", .arr [.str "authorization_code"])])]), .obj [], .obj [], true⟩,
  ⟨766, .obj [("grant_types", .obj [("add", .arr []), ("essential", .bool true)])], .obj [("grant_types", .obj [("superset_of", .arr [.str "authorization_code", .str "refresh_token"]), ("essential", .bool true)])], some (.obj [("grant_types", .obj [("add", .arr []), ("superset_of", .arr [.str "authorization_code", .str "refresh_token"]), ("essential", .bool true)])]), .obj [("grant_types", .arr [.str "authorization_code"])], .obj [], true⟩,
  ⟨767, .obj [("grant_types", .obj [("add", .arr []), ("essential", .bool true)])], .obj [("grant_types", .obj [("superset_of", .arr [.str "authorization_code", .str "refresh_token"])])], some (.obj [("grant_types", .obj [("add", .arr []), ("superset_of", .arr [.str "authorization_code", .str "refresh_token"]), ("essential", .bool true)])]), .obj [("grant_types", .arr [.str "authorization_code"])], .obj [], true⟩,
  ⟨768, .obj [("grant_types", .obj [("add", .arr [])])], .obj [("grant_types", .obj [("superset_of", .arr [.str "authorization_code", .str "refresh_token"]), ("essential", .bool true)])], some (.obj [("grant_types", .obj [("add", .arr []), ("superset_of", .arr [.str "authorization_code", .str "refresh_token"]), ("essential", .bool true)])]), .obj [("grant_types", .arr [.str "authorization_code"])], .obj [], true⟩,
  ⟨769, .obj [("grant_types", .obj [("add", .arr [])])], .obj [("grant_types", .obj [("superset_of", .arr [.str "authorization_code", .str "refresh_token"])])], some (.obj [("grant_types", .obj [("add", .arr []), ("superset_of", .arr [.str "authorization_code", .str "refresh_token"])])]), .obj [("grant_types", .arr [.str "authorization_code"])], .obj [], true⟩,
  ⟨770, .obj [("grant_types", .obj [("add", .arr []), ("essential", .bool true)])], .obj [("grant_types", .obj [("superset_of", .arr [.str "authorization_code", .str "refresh_token"]), ("essential", .bool true)])], some (.obj [("grant_types", .obj [("add", .arr []), ("superset_of", .arr [.str "authorization_code", .str "refresh_token"]), ("essential", .bool true)])]), .obj [("grant_types", .arr [.str "password"])], .obj [], true⟩,
  ⟨771, .obj [("grant_types", .obj [("add", .arr []), ("essential", .bool true)])], .obj [("grant_types", .obj [("superset_of", .arr [.str "authorization_code", .str "refresh_token"])])], some (.obj [("grant_types", .obj [("add", .arr []), ("superset_of", .arr [.str "authorization_code", .str "refresh_token"]), ("essential", .bool true)])]), .obj [("grant_types", .arr [.str "password"])], .obj [], true⟩,
  ⟨772, .obj [("grant_types", .obj [("add", .arr [])])], .obj [("grant_types", .obj [("superset_of", .arr [.str "authorization_code", .str "refresh_token"]), ("essential", .bool true)])], some (.obj [("grant_types", .obj [("add", .arr []), ("superset_of", .arr [.str "authorization_code", .str "refresh_token"]), ("essential", .bool true)])]), .obj [("grant_types", .arr [.str "password"])], .obj [], true⟩,
  ⟨773, .obj [("grant_types", .obj [("add", .arr [])])], .obj [("grant_types", .obj [("superset_of", .arr [.str "authorization_code", .str "refresh_token"])])], some (.obj [("grant_types", .obj [("add", .arr []), ("superset_of", .arr [.str "authorization_code", .str "refresh_token"])])]), .obj [("grant_types", .arr [.str "password"])], .obj [], true⟩,
  ⟨774, .obj [("grant_types", .obj [("add", .arr []), ("essential", .bool true)])], .obj [("grant_types", .obj [("superset_of", .arr [.str "authorization_code", .str "refresh_token"]), ("essential", .bool true)])], some (.obj [("grant_types", .obj [("add", .arr []), ("superset_of", .arr [.str "authorization_code", .str "refresh_token"]), ("essential", .bool true)])]), .obj [("grant_types", .arr [.str "authorization_code", .str "refresh_token"])], .obj [("grant_types", .arr [.str "authorization_code", .str "refresh_token"])], false⟩,
  ⟨775, .obj [("grant_types", .obj [("add", .arr []), ("essential", .bool true)])], .obj [("grant_types", .obj [("superset_of", .arr [.str "authorization_code", .str "refresh_token"])])], some (.obj [("grant_types", .obj [("add", .arr []), ("superset_of", .arr [.str "authorization_code", .str "refresh_token"]), ("essential", .bool true)])]), .obj [("grant_types", .arr [.str "authorization_code", .str "refresh_token"])], .obj [("grant_types", .arr [.str "authorization_code", .str "refresh_token"])], false⟩,
  ⟨776, .obj [("grant_types", .obj [("add", .arr [])])], .obj [("grant_types", .obj [("superset_of", .arr [.str "authorization_code", .str "refresh_token"]), ("essential", .bool true)])], some (.obj [("grant_types", .obj [("add", .arr []), ("superset_of", .arr [.str "authorization_code", .str "refresh_token"]), ("essential", .bool true)])]), .obj [("grant_types", .arr [.str "authorization_code", .str "refresh_token"])], .obj [("grant_types", .arr [.str "authorization_code", .str "refresh_token"])], false⟩,
  ⟨777, .obj [("grant_types", .obj [("add", .arr [])])], .obj [("grant_types", .obj [("superset_of", .arr [.str "authorization_code", .str "refresh_token"])])], some (.obj [("grant_types", .obj [("add", .arr []), ("superset_of", .arr [.str "authorization_code", .str "refresh_token"])])]), .obj [("grant_types", .arr [.str "authorization_code", .str "refresh_token"])], .obj [("grant_types", .arr [.str "authorization_code", .str "refresh_token"])], false⟩,
  ⟨778, .obj [("grant_types", .obj [("add", .arr []), ("essential", .bool true)])], .obj [("grant_types", .obj [("superset_of", .arr [.str "authorization_code", .str "refresh_token"]), ("essential", .bool true)])], some (.obj [("grant_types", .obj [("add", .arr []), ("superset_of", .arr [.str "authorization_code", .str "refresh_token"]), ("essential", .bool true)])]), .obj [("grant_types", .arr [.str "authorization_code", .str "password"])], .obj [], true⟩,
  ⟨779, .obj [("grant_types", .obj [("add", .arr []), ("essential", .bool true)])], .obj [("grant_types", .obj [("superset_of", .arr [.str "authorization_code", .str "refresh_token"])])], some (.obj [("grant_types", .obj [("add", .arr []), ("superset_of", .arr [.str "authorization_code", .str "refresh_token"]), ("essential", .bool true)])]), .obj [("grant_types", .arr [.str "authorization_code", .str "password"])], .obj [], true⟩,
  ⟨780, .obj [("grant_types", .obj [("add", .arr [])])], .obj [("grant_types", .obj [("superset_of", .arr [.str "authorization_code", .str "refresh_token"]), ("essential", .bool true)])], some (.obj [("grant_types", .obj [("add", .arr []), ("superset_of", .arr [.str "authorization_code", .str "refresh_token"]), ("essential", .bool true)])]), .obj [("grant_types", .arr [.str "authorization_code", .str "password"])], .obj [], true⟩,
  ⟨781, .obj [("grant_types", .obj [("add", .arr [])])], .obj [("grant_types", .obj [("superset_of", .arr [.str "authorization_code", .str "refresh_token"])])], some (.obj [("grant_types", .obj [("add", .arr []), ("superset_of", .arr [.str "authorization_code", .str "refresh_token"])])]), .obj [("grant_types", .arr [.str "authorization_code", .str "password"])], .obj [], true⟩,
  ⟨782, .obj [("grant_types", .obj [("add", .arr []), ("essential", .bool true)])], .obj [("grant_types", .obj [("superset_of", .arr [.str "authorization_code", .str "refresh_token"]), ("essential", .bool true)])], some (.obj [("grant_types", .obj [("add", .arr []), ("superset_of", .arr [.str "authorization_code", .str "refresh_token"]), ("essential", .bool true)])]), .obj [("grant_types", .arr [])], .obj [], true⟩,
  ⟨783, .obj [("grant_types", .obj [("add", .arr []), ("essential", .bool true)])], .obj [("grant_types", .obj [("superset_of", .arr [.str "authorization_code", .str "refresh_token"])])], some (.obj [("grant_types", .obj [("add", .arr []), ("superset_of", .arr [.str "authorization_code", .str "refresh_token"]), ("essential", .bool true)])]), .obj [("grant_types", .arr [])], .obj [], true⟩,
  ⟨784, .obj [("grant_types", .obj [("add", .arr [])])], .obj [("grant_types", .obj [("superset_of", .arr [.str "authorization_code", .str "refresh_token"]), ("essential", .bool true)])], some (.obj [("grant_types", .obj [("add", .arr []), ("superset_of", .arr [.str "authorization_code", .str "refresh_token"]), ("essential", .bool true)])]), .obj [("grant_types", .arr [])], .obj [], true⟩,
  ⟨785, .obj [("grant_types", .obj [("add", .arr [])])], .obj [("grant_types", .obj [("superset_of", .arr [.str "authorization_code", .str "refresh_token"])])], some (.obj [("grant_types", .obj [("add", .arr []), ("superset_of", .arr [.str "authorization_code", .str "refresh_token"])])]), .obj [("grant_types", .arr [])], .obj [], true⟩,
  ⟨786, .obj [("grant_types", .obj [("add", .arr []), ("essential", .bool true)])], .obj [("grant_types", .obj [("superset_of", .arr [.str "authorization_code", .str "refresh_token"]), ("essential", .bool true)])], some (.obj [("grant_types", .obj [("add", .arr []), ("superset_of", .arr [.str "authorization_code", .str "refresh_token"]), ("essential", .bool true)])]), .obj [], .obj [], true⟩,
  ⟨787, .obj [("grant_types", .obj [("add", .arr []), ("essential", .bool true)])], .obj [("grant_types", .obj [("superset_of", .arr [.str "authorization_code", .str "refresh_token"])])], some (.obj [("grant_types", .obj [("add", .arr []), ("superset_of", .arr [.str "authorization_code", .str "refresh_token"]), ("essential", .bool true)])]), .obj [], .obj [], true⟩,
  ⟨788, .obj [("grant_types", .obj [("add", .arr [])])], .obj [("grant_types", .obj [("superset_of", .arr [.str "authorization_code", .str "refresh_token"]), ("essential", .bool true)])], some (.obj [("grant_types", .obj [("add", .arr []), ("superset_of", .arr [.str "authorization_code", .str "refresh_token"]), ("essential", .bool true)])]), .obj [], .obj [], true⟩,
  ⟨789, .obj [("grant_types", .obj [("add", .arr [])])], .obj [("grant_types", .obj [("superset_of", .arr [.str "authorization_code", .str "refresh_token"])])], some (.obj [("grant_types", .obj [("add", .arr []), ("superset_of", .arr [.str "authorization_code", .str "refresh_token"])])]), .obj [], .obj [], true⟩,
  ⟨790, .obj [("grant_types", .obj [("add", .arr [.str "authorization_code"]), ("essential", .bool true)])], .obj [("grant_types", .obj [("superset_of", .arr [.str "authorization_code", .str "refresh_token"]), ("essential", .bool true)])], some (.obj [("grant_types", .obj [("add", .arr [.str "authorization_code"]), ("superset_of", .arr [.str "authorization_code", .str "refresh_token"]), ("essential", .bool true)])]), .obj [("grant_types", .arr [.str "authorization_code"])], .obj [], true⟩,
  ⟨791, .obj [("grant_types", .obj [("add", .arr [.str "authorization_code"]), ("essential", .bool true)])], .obj [("grant_types", .obj [("superset_of", .arr [.str "authorization_code", .str "refresh_token"])])], some (.obj [("grant_types", .obj [("add", .arr [.str "authorization_code"]), ("superset_of", .arr [.str "authorization_code", .str "refresh_token"]), ("essential", .bool true)])]), .obj [("grant_types", .arr [.str "authorization_code"])], .obj [], true⟩,
  ⟨792, .obj [("grant_types", .obj [("add", .arr [.str "authorization_code"])])], .obj [("grant_types", .obj [("superset_of", .arr [.str "authorization_code", .str "refresh_token"]), ("essential", .bool true)])], some (.obj [("grant_types", .obj [("add", .arr [.str "authorization_code"]), ("superset_of", .arr [.str "authorization_code", .str "refresh_token"]), ("essential", .bool true)])]), .obj [("grant_types", .arr [.str "authorization_code"])], .obj [], true⟩,
  ⟨793, .obj [("grant_types", .obj [("add", .arr [.str "authorization_code"])])], .obj [("grant_types", .obj [("superset_of", .arr [.str "authorization_code", .str "refresh_token"])])], some (.obj [("grant_types", .obj [("add", .arr [.str "authorization_code"]), ("superset_of", .arr [.str "authorization_code", .str "refresh_token"])])]), .obj [("grant_types", .arr [.str "authorization_code"])], .obj [], true⟩,
  ⟨794, .obj [("grant_types", .obj [("add", .arr [.str "authorization_code"]), ("essential", .bool true)])], .obj [("grant_types", .obj [("superset_of", .arr [.str "authorization_code", .str "refresh_token"]), ("essential", .bool true)])], some (.obj [("grant_types", .obj [("add", .arr [.str "authorization_code"]), ("superset_of", .arr [.str "authorization_code", .str "refresh_token"]), ("essential", .bool true)])]), .obj [("grant_types", .arr [.str "password"])], .obj [], true⟩,
  ⟨795, .obj [("grant_types", .obj [("add", .arr [.str "authorization_code"]), ("essential", .bool true)])], .obj [("grant_types", .obj [("superset_of", .arr [.str "authorization_code", .str "refresh_token"])])], some (.obj [("grant_types", .obj [("add", .arr [.str "authorization_code"]), ("superset_of", .arr [.str "authorization_code", .str "refresh_token"]), ("essential", .bool true)])]), .obj [("grant_types", .arr [.str "password"])], .obj [], true⟩,
  ⟨796, .obj [("grant_types", .obj [("add", .arr [.str "authorization_code"])])], .obj [("grant_types", .obj [("superset_of", .arr [.str "authorization_code", .str "refresh_token"]), ("essential", .bool true)])], some (.obj [("grant_types", .obj [("add", .arr [.str "authorization_code"]), ("superset_of", .arr [.str "authorization_code", .str "refresh_token"]), ("essential", .bool true)])]), .obj [("grant_types", .arr [.str "password"])], .obj [], true⟩,
  ⟨797, .obj [("grant_types", .obj [("add", .arr [.str "authorization_code"])])], .obj [("grant_types", .obj [("superset_of", .arr [.str "authorization_code", .str "refresh_token"])])], some (.obj [("grant_types", .obj [("add", .arr [.str "authorization_code"]), ("superset_of", .arr [.str "authorization_code", .str "refresh_token"])])]), .obj [("grant_types", .arr [.str "password"])], .obj [], true⟩,
  ⟨798, .obj [("grant_types", .obj [("add", .arr [.str "authorization_code"]), ("essential", .bool true)])], .obj [("grant_types", .obj [("superset_of", .arr [.str "authorization_code", .str "refresh_token"]), ("essential", .bool true)])], some (.obj [("grant_types", .obj [("add", .arr [.str "authorization_code"]), ("superset_of", .arr [.str "authorization_code", .str "refresh_token"]), ("essential", .bool true)])]), .obj [("grant_types", .arr [.str "authorization_code", .str "refresh_token"])], .obj [("grant_types", .arr [.str "authorization_code", .str "refresh_token"])], false⟩,
  ⟨799, .obj [("grant_types", .obj [("add", .arr [.str "authorization_code"]), ("essential", .bool true)])], .obj [("grant_types", .obj [("superset_of", .arr [.str "authorization_code", .str "refresh_token"])])], some (.obj [("grant_types", .obj [("add", .arr [.str "authorization_code"]), ("superset_of", .arr [.str "authorization_code", .str "refresh_token"]), ("essential", .bool true)])]), .obj [("grant_types", .arr [.str "authorization_code", .str "refresh_token"])], .obj [("grant_types", .arr [.str "authorization_code", .str "refresh_token"])], false⟩,
  ⟨800, .obj [("grant_types", .obj [("add", .arr [.str "authorization_code"])])], .obj [("grant_types", .obj [("superset_of", .arr [.str "authorization_code", .str "refresh_token"]), ("essential", .bool true)])], some (.obj [("grant_types", .obj [("add", .arr [.str "authorization_code"]), ("superset_of", .arr [.str "authorization_code", .str "refresh_token"]), ("essential", .bool true)])]), .obj [("grant_types", .arr [.str "authorization_code", .str "refresh_token"])], .obj [("grant_types", .arr [.str "authorization_code", .str "refresh_token"])], false⟩,
  ⟨801, .obj [("grant_types", .obj [("add", .arr [.str "authorization_code"])])], .obj [("grant_types", .obj [("superset_of", .arr [.str "authorization_code", .str "refresh_token"])])], some (.obj [("grant_types", .obj [("add", .arr [.str "authorization_code"]), ("superset_of", .arr [.str "authorization_code", .str "refresh_token"])])]), .obj [("grant_types", .arr [.str "authorization_code", .str "refresh_token"])], .obj [("grant_types", .arr [.str "authorization_code", .str "refresh_token"])], false⟩,
  ⟨802, .obj [("grant_types", .obj [("add", .arr [.str "authorization_code"]), ("essential", .bool true)])], .obj [("grant_types", .obj [("superset_of", .arr [.str "authorization_code", .str "refresh_token"]), ("essential", .bool true)])], some (.obj [("grant_types", .obj [("add", .arr [.str "authorization_code"]), ("superset_of", .arr [.str "authorization_code", .str "refresh_token"]), ("essential", .bool true)])]), .obj [("grant_types", .arr [.str "authorization_code", .str "password"])], .obj [], true⟩,
  ⟨803, .obj [("grant_types", .obj [("add", .arr [.str "authorization_code"]), ("essential", .bool true)])], .obj [("grant_types", .obj [("superset_of", .arr [.str "authorization_code", .str "refresh_token"])])], some (.obj [("grant_types", .obj [("add", .arr [.str "authorization_code"]), ("superset_of", .arr [.str "authorization_code", .str "refresh_token"]), ("essential", .bool true)])]), .obj [("grant_types", .arr [.str "authorization_code", .str "password"])], .obj [], true⟩,
  ⟨804, .obj [("grant_types", .obj [("add", .arr [.str "authorization_code"])])], .obj [("grant_types", .obj [("superset_of", .arr [.str "authorization_code", .str "refresh_token"]), ("essential", .bool true)])], some (.obj [("grant_types", .obj [("add", .arr [.str "authorization_code"]), ("superset_of", .arr [.str "authorization_code", .str "refresh_token"]), ("essential", .bool true)])]), .obj [("grant_types", .arr [.str "authorization_code", .str "password"])], .obj [], true⟩,
  ⟨805, .obj [("grant_types", .obj [("add", .arr [.str "authorization_code"])])], .obj [("grant_types", .obj [("superset_of", .arr [.str "authorization_code", .str "refresh_token"])])], some (.obj [("grant_types", .obj [("add", .arr [.str "authorization_code"]), ("superset_of", .arr [.str "authorization_code", .str "refresh_token"])])]), .obj [("grant_types", .arr [.str "authorization_code", .str "password"])], .obj [], true⟩,
  ⟨806, .obj [("grant_types", .obj [("add", .arr [.str "authorization_code"]), ("essential", .bool true)])], .obj [("grant_types", .obj [("superset_of", .arr [.str "authorization_code", .str "refresh_token"]), ("essential", .bool true)])], some (.obj [("grant_types", .obj [("add", .arr [.str "authorization_code"]), ("superset_of", .arr [.str "authorization_code", .str "refresh_token"]), ("essential", .bool true)])]), .obj [("grant_types", .arr [])], .obj [], true⟩,
  ⟨807, .obj [("grant_types", .obj [("add", .arr [.str "authorization_code"]), ("essential", .bool true)])], .obj [("grant_types", .obj [("superset_of", .arr [.str "authorization_code", .str "refresh_token"])])], some (.obj [("grant_types", .obj [("add", .arr [.str "authorization_code"]), ("superset_of", .arr [.str "authorization_code", .str "refresh_token"]), ("essential", .bool true)])]), .obj [("grant_types", .arr [])], .obj [], true⟩,
  ⟨808, .obj [("grant_types", .obj [("add", .arr [.str "authorization_code"])])], .obj [("grant_types", .obj [("superset_of", .arr [.str "authorization_code", .str "refresh_token"]), ("essential", .bool true)])], some (.obj [("grant_types", .obj [("add", .arr [.str "authorization_code"]), ("superset_of", .arr [.str "authorization_code", .str "refresh_token"]), ("essential", .bool true)])]), .obj [("grant_types", .arr [])], .obj [], true⟩,
  ⟨809, .obj [("grant_types", .obj [("add", .arr [.str "authorization_code"])])], .obj [("grant_types", .obj [("superset_of", .arr [.str "authorization_code", .str "refresh_token"])])], some (.obj [("grant_types", .obj [("add", .arr [.str "authorization_code"]), ("superset_of", .arr [.str "authorization_code", .str "refresh_token"])])]), .obj [("grant_types", .arr [])], .obj [], true⟩,
  ⟨810, .obj [("grant_types", .obj [("add", .arr [.str "authorization_code"]), ("essential", .bool true)])], .obj [("grant_types", .obj [("superset_of", .arr [.str "authorization_code", .str "refresh_token"]), ("essential", .bool true)])], some (.obj [("grant_types", .obj [("add", .arr [.str "authorization_code"]), ("superset_of", .arr [.str "authorization_code", .str "refresh_token"]), ("essential", .bool true)])]), .obj [], .obj [], true⟩,
  ⟨811, .obj [("grant_types", .obj [("add", .arr [.str "authorization_code"]), ("essential", .bool true)])], .obj [("grant_types", .obj [("superset_of", .arr [.str "authorization_code", .str "refresh_token"])])], some (.obj [("grant_types", .obj [("add", .arr [.str "authorization_code"]), ("superset_of", .arr [.str "authorization_code", .str "refresh_token"]), ("essential", .bool true)])]), .obj [], .obj [], true⟩,
  ⟨812, .obj [("grant_types", .obj [("add", .arr [.str "authorization_code"])])], .obj [("grant_types", .obj [("superset_of", .arr [.str "authorization_code", .str "refresh_token"]), ("essential", .bool true)])], some (.obj [("grant_types", .obj [("add", .arr [.str "authorization_code"]), ("superset_of", .arr [.str "authorization_code", .str "refresh_token"]), ("essential", .bool true)])]), .obj [], .obj [], true⟩,
  ⟨813, .obj [("grant_types", .obj [("add", .arr [.str "authorization_code"])])], .obj [("grant_types", .obj [("superset_of", .arr [.str "authorization_code", .str "refresh_token"])])], some (.obj [("grant_types", .obj [("add", .arr [.str "authorization_code"]), ("superset_of", .arr [.str "authorization_code", .str "refresh_token"])])]), .obj [], .obj [], true⟩,
  ⟨814, .obj [("id_token_signed_response_alg", .obj [("default", .str "RS256"), ("essential", .bool true)])], .obj [("id_token_signed_response_alg", .obj [("value", .str "RS256"), ("essential", .bool true)])], some (.obj [("id_token_signed_response_alg", .obj [("default", .str "RS256"), ("value", .str "RS256"), ("essential", .bool true)])]), .obj [("id_token_signed_response_alg", .str "RS256")], .obj [("id_token_signed_response_alg", .str "RS256")], false⟩,
  ⟨815, .obj [("id_token_signed_response_alg", .obj [("default", .str "RS256"), ("essential", .bool true)])], .obj [("id_token_signed_response_alg", .obj [("value", .str "RS256")])], some (.obj [("id_token_signed_response_alg", .obj [("default", .str "RS256"), ("value", .str "RS256"), ("essential", .bool true)])]), .obj [("id_token_signed_response_alg", .str "RS256")], .obj [("id_token_signed_response_alg", .str "RS256")], false⟩,
  ⟨816, .obj [("id_token_signed_response_alg", .obj [("default", .str "RS256")])], .obj [("id_token_signed_response_alg", .obj [("value", .str "RS256"), ("essential", .bool true)])], some (.obj [("id_token_signed_response_alg", .obj [("default", .str "RS256"), ("value", .str "RS256"), ("essential", .bool true)])]), .obj [("id_token_signed_response_alg", .str "RS256")], .obj [("id_token_signed_response_alg", .str "RS256")], false⟩,
  ⟨817, .obj [("id_token_signed_response_alg", .obj [("default", .str "RS256")])], .obj [("id_token_signed_response_alg", .obj [("value", .str "RS256")])], some (.obj [("id_token_signed_response_alg", .obj [("default", .str "RS256"), ("value", .str "RS256")])]), .obj [("id_token_signed_response_alg", .str "RS256")], .obj [("id_token_signed_response_alg", .str "RS256")], false⟩,
  ⟨818, .obj [("id_token_signed_response_alg", .obj [("default", .str "RS256"), ("essential", .bool true)])], .obj [("id_token_signed_response_alg", .obj [("value", .str "RS256"), ("essential", .bool true)])], some (.obj [("id_token_signed_response_alg", .obj [("default", .str "RS256"), ("value", .str "RS256"), ("essential", .bool true)])]), .obj [("id_token_signed_response_alg", .str "EdDSA")], .obj [("id_token_signed_response_alg", .str "RS256")], false⟩,
  ⟨819, .obj [("id_token_signed_response_alg", .obj [("default", .str "RS256"), ("essential", .bool true)])], .obj [("id_token_signed_response_alg", .obj [("value", .str "RS256")])], some (.obj [("id_token_signed_response_alg", .obj [("default", .str "RS256"), ("value", .str "RS256"), ("essential", .bool true)])]), .obj [("id_token_signed_response_alg", .str "EdDSA")], .obj [("id_token_signed_response_alg", .str "RS256")], false⟩,
  ⟨820, .obj [("id_token_signed_response_alg", .obj [("default", .str "RS256")])], .obj [("id_token_signed_response_alg", .obj [("value", .str "RS256"), ("essential", .bool true)])], some (.obj [("id_token_signed_response_alg", .obj [("default", .str "RS256"), ("value", .str "RS256"), ("essential", .bool true)])]), .obj [("id_token_signed_response_alg", .str "EdDSA")], .obj [("id_token_signed_response_alg", .str "RS256")], false⟩,
  ⟨821, .obj [("id_token_signed_response_alg", .obj [("default", .str "RS256")])], .obj [("id_token_signed_response_alg", .obj [("value", .str "RS256")])], some (.obj [("id_token_signed_response_alg", .obj [("default", .str "RS256"), ("value", .str "RS256")])]), .obj [("id_token_signed_response_alg", .str "EdDSA")], .obj [("id_token_signed_response_alg", .str "RS256")], false⟩,
  ⟨822, .obj [("id_token_signed_response_alg", .obj [("default", .str "RS256"), ("essential", .bool true)])], .obj [("id_token_signed_response_alg", .obj [("value", .str "RS256"), ("essential", .bool true)])], some (.obj [("id_token_signed_response_alg", .obj [("default", .str "RS256"), ("value", .str "RS256"), ("essential", .bool true)])]), .obj [], .obj [("id_token_signed_response_alg", .str "RS256")], false⟩,
  ⟨823, .obj [("id_token_signed_response_alg", .obj [("default", .str "RS256"), ("essential", .bool true)])], .obj [("id_token_signed_response_alg", .obj [("value", .str "RS256")])], some (.obj [("id_token_signed_response_alg", .obj [("default", .str "RS256"), ("value", .str "RS256"), ("essential", .bool true)])]), .obj [], .obj [("id_token_signed_response_alg", .str "RS256")], false⟩,
  ⟨824, .obj [("id_token_signed_response_alg", .obj [("default", .str "RS256")])], .obj [("id_token_signed_response_alg", .obj [("value", .str "RS256"), ("essential", .bool true)])], some (.obj [("id_token_signed_response_alg", .obj [("default", .str "RS256"), ("value", .str "RS256"), ("essential", .bool true)])]), .obj [], .obj [("id_token_signed_response_alg", .str "RS256")], false⟩,
  ⟨825, .obj [("id_token_signed_response_alg", .obj [("default", .str "RS256")])], .obj [("id_token_signed_response_alg", .obj [("value", .str "RS256")])], some (.obj [("id_token_signed_response_alg", .obj [("default", .str "RS256"), ("value", .str "RS256")])]), .obj [], .obj [("id_token_signed_response_alg", .str "RS256")], false⟩,
  ⟨826, .obj [("grant_types", .obj [("default", .arr []), ("essential", .bool true)])], .obj [("grant_types", .obj [("value", .arr [.str "authorization_code"]), ("essential", .bool true)])], some (.obj [("grant_types", .obj [("default", .arr []), ("value", .arr [.str "authorization_code"]), ("essential", .bool true)])]), .obj [("grant_types", .arr [.str "authorization_code"])], .obj [("grant_types", .arr [.str "authorization_code"])], false⟩,
  ⟨827, .obj [("grant_types", .obj [("default", .arr []), ("essential", .bool true)])], .obj [("grant_types", .obj [("value", .arr [.str "authorization_code"])])], some (.obj [("grant_types", .obj [("default", .arr []), ("value", .arr [.str "authorization_code"]), ("essential", .bool true)])]), .obj [("grant_types", .arr [.str "authorization_code"])], .obj [("grant_types", .arr [.str "authorization_code"])], false⟩,
  ⟨828, .obj [("grant_types", .obj [("default", .arr [])])], .obj [("grant_types", .obj [("value", .arr [.str "authorization_code"]), ("essential", .bool true)])], some (.obj [("grant_types", .obj [("default", .arr []), ("value", .arr [.str "authorization_code"]), ("essential", .bool true)])]), .obj [("grant_types", .arr [.str "authorization_code"])], .obj [("grant_types", .arr [.str "authorization_code"])], false⟩,
  ⟨829, .obj [("grant_types", .obj [("default", .arr [])])], .obj [("grant_types", .obj [("value", .arr [.str "authorization_code"])])], some (.obj [("grant_types", .obj [("default", .arr []), ("value", .arr [.str "authorization_code"])])]), .obj [("grant_types", .arr [.str "authorization_code"])], .obj [("grant_types", .arr [.str "authorization_code"])], false⟩,
  ⟨830, .obj [("grant_types", .obj [("default", .arr []), ("essential", .bool true)])], .obj [("grant_types", .obj [("value", .arr [.str "authorization_code"]), ("essential", .bool true)])], some (.obj [("grant_types", .obj [("default", .arr []), ("value", .arr [.str "authorization_code"]), ("essential", .bool true)])]), .obj [("grant_types", .arr [.str "password"])], .obj [("grant_types", .arr [.str "authorization_code"])], false⟩,
  ⟨831, .obj [("grant_types", .obj [("default", .arr []), ("essential", .bool true)])], .obj [("grant_types", .obj [("value", .arr [.str "authorization_code"])])], some (.obj [("grant_types", .obj [("default", .arr []), ("value", .arr [.str "authorization_code"]), ("essential", .bool true)])]), .obj [("grant_types", .arr [.str "password"])], .obj [("grant_types", .arr [.str "authorization_code"])], false⟩,
  ⟨832, .obj [("grant_types", .obj [("default", .arr [])])], .obj [("grant_types", .obj [("value", .arr [.str "authorization_code"]), ("essential", .bool true)])], some (.obj [("grant_types", .obj [("default", .arr []), ("value", .arr [.str "authorization_code"]), ("essential", .bool true)])]), .obj [("grant_types", .arr [.str "password"])], .obj [("grant_types", .arr [.str "authorization_code"])], false⟩,
  ⟨833, .obj [("grant_types", .obj [("default", .arr [])])], .obj [("grant_types", .obj [("value", .arr [.str "authorization_code"])])], some (.obj [("grant_types", .obj [("default", .arr []), ("value", .arr [.str "authorization_code"])])]), .obj [("grant_types", .arr [.str "password"])], .obj [("grant_types", .arr [.str "authorization_code"])], false⟩,
  ⟨834, .obj [("grant_types", .obj [("default", .arr []), ("essential", .bool true)])], .obj [("grant_types", .obj [("value", .arr [.str "authorization_code"]), ("essential", .bool true)])], some (.obj [("grant_types", .obj [("default", .arr []), ("value", .arr [.str "authorization_code"]), ("essential", .bool true)])]), .obj [("grant_types", .arr [.str "authorization_code", .str "refresh_token"])], .obj [("grant_types", .arr [.str "authorization_code"])], false⟩,
  ⟨835, .obj [("grant_types", .obj [("default", .arr []), ("essential", .bool true)])], .obj [("grant_types", .obj [("value", .arr [.str "authorization_code"])])], some (.obj [("grant_types", .obj [("default", .arr []), ("value", .arr [.str "authorization_code"]), ("essential", .bool true)])]), .obj [("grant_types", .arr [.str "authorization_code", .str "refresh_token"])], .obj [("grant_types", .arr [.str "authorization_code"])], false⟩,
  ⟨836, .obj [("grant_types", .obj [("default", .arr [])])], .obj [("grant_types", .obj [("value", .arr [.str "authorization_code"]), ("essential", .bool true)])], some (.obj [("grant_types", .obj [("default", .arr []), ("value", .arr [.str "authorization_code"]), ("essential", .bool true)])]), .obj [("grant_types", .arr [.str "authorization_code", .str "refresh_token"])], .obj [("grant_types", .arr [.str "authorization_code"])], false⟩,
  ⟨837, .obj [("grant_types", .obj [("default", .arr [])])], .obj [("grant_types", .obj [("value", .arr [.str "authorization_code"])])], some (.obj [("grant_types", .obj [("default", .arr []), ("value", .arr [.str "authorization_code"])])]), .obj [("grant_types", .arr [.str "authorization_code", .str "refresh_token"])], .obj [("grant_types", .arr [.str "authorization_code"])], false⟩,
  ⟨838, .obj [("grant_types", .obj [("default", .arr []), ("essential", .bool true)])], .obj [("grant_types", .obj [("value", .arr [.str "authorization_code"]), ("essential", .bool true)])], some (.obj [("grant_types", .obj [("default", .arr []), ("value", .arr [.str "authorization_code"]), ("essential", .bool true)])]), .obj [("grant_types", .arr [.str "authorization_code", .str "password"])], .obj [("grant_types", .arr [.str "authorization_code"])], false⟩,
  ⟨839, .obj [("grant_types", .obj [("default", .arr []), ("essential", .bool true)])], .obj [("grant_types", .obj [("value", .arr [.str "authorization_code"])])], some (.obj [("grant_types", .obj [("default", .arr []), ("value", .arr [.str "authorization_code"]), ("essential", .bool true)])]), .obj [("grant_types", .arr [.str "authorization_code", .str "password"])], .obj [("grant_types", .arr [.str "authorization_code"])], false⟩,
  ⟨840, .obj [("grant_types", .obj [("default", .arr [])])], .obj [("grant_types", .obj [("value", .arr [.str "authorization_code"]), ("essential", .bool true)])], some (.obj [("grant_types", .obj [("default", .arr []), ("value", .arr [.str "authorization_code"]), ("essential", .bool true)])]), .obj [("grant_types", .arr [.str "authorization_code", .str "password"])], .obj [("grant_types", .arr [.str "authorization_code"])], false⟩,
  ⟨841, .obj [("grant_types", .obj [("default", .arr [])])], .obj [("grant_types", .obj [("value", .arr [.str "authorization_code"])])], some (.obj [("grant_types", .obj [("default", .arr []), ("value", .arr [.str "authorization_code"])])]), .obj [("grant_types", .arr [.str "authorization_code", .str "password"])], .obj [("grant_types", .arr [.str "authorization_code"])], false⟩,
  ⟨842, .obj [("grant_types", .obj [("default", .arr []), ("essential", .bool true)])], .obj [("grant_types", .obj [("value", .arr [.str "authorization_code"]), ("essential", .bool true)])], some (.obj [("grant_types", .obj [("default", .arr []), ("value", .arr [.str "authorization_code"]), ("essential", .bool true)])]), .obj [("grant_types", .arr [])], .obj [("grant_types", .arr [.str "authorization_code"])], false⟩,
  ⟨843, .obj [("grant_types", .obj [("default", .arr []), ("essential", .bool true)])], .obj [("grant_types", .obj [("value", .arr [.str "authorization_code"])])], some (.obj [("grant_types", .obj [("default", .arr []), ("value", .arr [.str "authorization_code"]), ("essential", .bool true)])]), .obj [("grant_types", .arr [])], .obj [("grant_types", .arr [.str "authorization_code"])], false⟩,
  ⟨844, .obj [("grant_types", .obj [("default", .arr [])])], .obj [("grant_types", .obj [("value", .arr [.str "authorization_code"]), ("essential", .bool true)])], some (.obj [("grant_types", .obj [("default", .arr []), ("value", .arr [.str "authorization_code"]), ("essential", .bool true)])]), .obj [("grant_types", .arr [])], .obj [("grant_types", .arr [.str "authorization_code"])], false⟩,
  ⟨845, .obj [("grant_types", .obj [("default", .arr [])])], .obj [("grant_types", .obj [("value", .arr [.str "authorization_code"])])], some (.obj [("grant_types", .obj [("default", .arr []), ("value", .arr [.str "authorization_code"])])]), .obj [("grant_types", .arr [])], .obj [("grant_types", .arr [.str "authorization_code"])], false⟩,
  ⟨846, .obj [("grant_types", .obj [("default", .arr []), ("essential", .bool true)])], .obj [("grant_types", .obj [("value", .arr [.str "authorization_code"]), ("essential", .bool true)])], some (.obj [("grant_types", .obj [("default", .arr []), ("value", .arr [.str "authorization_code"]), ("essential", .bool true)])]), .obj [], .obj [("grant_types", .arr [.str "authorization_code"])], false⟩,
  ⟨847, .obj [("grant_types", .obj [("default", .arr []), ("essential", .bool true)])], .obj [("grant_types", .obj [("value", .arr [.str "authorization_code"])])], some (.obj [("grant_types", .obj [("default", .arr []), ("value", .arr [.str "authorization_code"]), ("essential", .bool true)])]), .obj [], .obj [("grant_types", .arr [.str "authorization_code"])], false⟩,
  ⟨848, .obj [("grant_types", .obj [("default", .arr [])])], .obj [("grant_types", .obj [("value", .arr [.str "authorization_code"]), ("essential", .bool true)])], some (.obj [("grant_types", .obj [("default", .arr []), ("value", .arr [.str "authorization_code"]), ("essential", .bool true)])]), .obj [], .obj [("grant_types", .arr [.str "authorization_code"])], false⟩,
  ⟨849, .obj [("grant_types", .obj [("default", .arr [])])], .obj [("grant_types", .obj [("value", .arr [.str "authorization_code"])])], some (.obj [("grant_types", .obj [("default", .arr []), ("value", .arr [.str "authorization_code"])])]), .obj [], .obj [("grant_types", .arr [.str "authorization_code"])], false⟩,
  ⟨850, .obj [("grant_types", .obj [("default", .arr []), ("essential", .bool true)])], .obj [("grant_types", .obj [("value", .arr [.str "authorization_code", .str "refresh_token"]), ("essential", .bool true)])], some (.obj [("grant_types", .obj [("default", .arr []), ("value", .arr [.str "authorization_code", .str "refresh_token"]), ("essential", .bool true)])]), .obj [("grant_types", .arr [.str "authorization_code"])], .obj [("grant_types", .arr [.str "authorization_code", .str "refresh_token"])], false⟩,
  ⟨851, .obj [("grant_types", .obj [("default", .arr []), ("essential", .bool true)])], .obj [("grant_types", .obj [("value", .arr [.str "authorization_code", .str "refresh_token"])])], some (.obj [("grant_types", .obj [("default", .arr []), ("value", .arr [.str "authorization_code", .str "refresh_token"]), ("essential", .bool true)])]), .obj [("grant_types", .arr [.str "authorization_code"])], .obj [("grant_types", .arr [.str "authorization_code", .str "refresh_token"])], false⟩,
  ⟨852, .obj [("grant_types", .obj [("default", .arr [])])], .obj [("grant_types", .obj [("value", .arr [.str "authorization_code", .str "refresh_token"]), ("essential", .bool true)])], some (.obj [("grant_types", .obj [("default", .arr []), ("value", .arr [.str "authorization_code", .str "refresh_token"]), ("essential", .bool true)])]), .obj [("grant_types", .arr [.str "authorization_code"])], .obj [("grant_types", .arr [.str "authorization_code", .str "refresh_token"])], false⟩,
  ⟨853, .obj [("grant_types", .obj [("default", .arr [])])], .obj [("grant_types", .obj [("value", .arr [.str "authorization_code", .str "refresh_token"])])], some (.obj [("grant_types", .obj [("default", .arr []), ("value", .arr [.str "authorization_code", .str "refresh_token"])])]), .obj [("grant_types", .arr [.str "authorization_code"])], .obj [("grant_types", .arr [.str "authorization_code", .str "refresh_token"])], false⟩,
  ⟨854, .obj [("grant_types", .obj [("default", .arr []), ("essential", .bool true)])], .obj [("grant_types", .obj [("value", .arr [.str "authorization_code", .str "refresh_token"]), ("essential", .bool true)])], some (.obj [("grant_types", .obj [("default", .arr []), ("value", .arr [.str "authorization_code", .str "refresh_token"]), ("essential", .bool true)])]), .obj [("grant_types", .arr [.str "password"])], .obj [("grant_types", .arr [.str "authorization_code", .str "refresh_token"])], false⟩,
  ⟨855, .obj [("grant_types", .obj [("default", .arr []), ("essential", .bool true)])], .obj [("grant_types", .obj [("value", .arr [.str "authorization_code", .str "refresh_token"])])], some (.obj [("grant_types", .obj [("default", .arr []), ("value", .arr [.str "authorization_code", .str "refresh_token"]), ("essential", .bool true)])]), .obj [("grant_types", .arr [.str "password"])], .obj [("grant_types", .arr [.str "authorization_code", .str "refresh_token"])], false⟩,
  ⟨856, .obj [("grant_types", .obj [("default", .arr [])])], .obj [("grant_types", .obj [("value", .arr [.str "authorization_code", .str "refresh_token"]), ("essential", .bool true)])], some (.obj [("grant_types", .obj [("default", .arr []), ("value", .arr [.str "authorization_code", .str "refresh_token"]), ("essential", .bool true)])]), .obj [("grant_types", .arr [.str "password"])], .obj [("grant_types", .arr [.str "authorization_code", .str "refresh_token"])], false⟩,
  ⟨857, .obj [("grant_types", .obj [("default", .arr [])])], .obj [("grant_types", .obj [("value", .arr [.str "authorization_code", .str "refresh_token"])])], some (.obj [("grant_types", .obj [("default", .arr []), ("value", .arr [.str "authorization_code", .str "refresh_token"])])]), .obj [("grant_types", .arr [.str "password"])], .obj [("grant_types", .arr [.str "authorization_code", .str "refresh_token"])], false⟩,
  ⟨858, .obj [("grant_types", .obj [("default", .arr []), ("essential", .bool true)])], .obj [("grant_types", .obj [("value", .arr [.str "authorization_code", .str "refresh_token"]), ("essential", .bool true)])], some (.obj [("grant_types", .obj [("default", .arr []), ("value", .arr [.str "authorization_code", .str "refresh_token"]), ("essential", .bool true)])]), .obj [("grant_types", .arr [.str "authorization_code", .str "refresh_token"])], .obj [("grant_types", .arr [.str "authorization_code", .str "refresh_token"])], false⟩,
  ⟨859, .obj [("grant_types", .obj [("default", .arr []), ("essential", .bool true)])], .obj [("grant_types", .obj [("value", .arr [.str "authorization_code", .str "refresh_token"])])], some (.obj [("grant_types", .obj [("default", .arr []), ("value", .arr [.str "authorization_code", .str "refresh_token"]), ("essential", .bool true)])]), .obj [("grant_types", .arr [.str "authorization_code", .str "refresh_token"])], .obj [("grant_types", .arr [.str "authorization_code", .str "refresh_token"])], false⟩,
  ⟨860, .obj [("grant_types", .obj [("default", .arr [])])], .obj [("grant_types", .obj [("value", .arr [.str "authorization_code", .str "refresh_token"]), ("essential", .bool true)])], some (.obj [("grant_types", .obj [("default", .arr []), ("value", .arr [.str "authorization_code", .str "refresh_token"]), ("essential", .bool true)])]), .obj [("grant_types", .arr [.str "authorization_code", .str "refresh_token"])], .obj [("grant_types", .arr [.str "authorization_code", .str "refresh_token"])], false⟩,
  ⟨861, .obj [("grant_types", .obj [("default", .arr [])])], .obj [("grant_types", .obj [("value", .arr [.str "authorization_code", .str "refresh_token"])])], some (.obj [("grant_types", .obj [("default", .arr []), ("value", .arr [.str "authorization_code", .str "refresh_token"])])]), .obj [("grant_types", .arr [.str "authorization_code", .str "refresh_token"])], .obj [("grant_types", .arr [.str "authorization_code", .str "refresh_token"])], false⟩,
  ⟨862, .obj [("grant_types", .obj [("default", .arr []), ("essential", .bool true)])], .obj [("grant_types", .obj [("value", .arr [.str "authorization_code", .str "refresh_token"]), ("essential", .bool true)])], some (.obj [("grant_types", .obj [("default", .arr []), ("value", .arr [.str "authorization_code", .str "refresh_token"]), ("essential", .bool true)])]), .obj [("grant_types", .arr [.str "authorization_code", .str "password"])], .obj [("grant_types", .arr [.str "authorization_code", .str "refresh_token"])], false⟩,
  ⟨863, .obj [("grant_types", .obj [("default", .arr []), ("essential", .bool true)])], .obj [("grant_types", .obj [("value", .arr [.str "authorization_code", .str "refresh_token"])])], some (.obj [("grant_types", .obj [("default", .arr []), ("value", .arr [.str "authorization_code", .str "refresh_token"]), ("essential", .bool true)])]), .obj [("grant_types", .arr [.str "authorization_code", .str "password"])], .obj [("grant_types", .arr [.str "authorization_code", .str "refresh_token"])], false⟩,
  ⟨864, .obj [("grant_types", .obj [("default", .arr [])])], .obj [("grant_types", .obj [("value", .arr [.str "authorization_code", .str "refresh_token"]), ("essential", .bool true)])], some (.obj [("grant_types", .obj [("default", .arr []), ("value", .arr [.str "authorization_code", .str "refresh_token"]), ("essential", .bool true)])]), .obj [("grant_types", .arr [.str "authorization_code", .str "password"])], .obj [("grant_types", .arr [.str "authorization_code", .str "refresh_token"])], false⟩,
  ⟨865, .obj [("grant_types", .obj [("default", .arr [])])], .obj [("grant_types", .obj [("value", .arr [.str "authorization_code", .str "refresh_token"])])], some (.obj [("grant_types", .obj [("default", .arr []), ("value", .arr [.str "authorization_code", .str "refresh_token"])])]), .obj [("grant_types", .arr [.str "authorization_code", .str "password"])], .obj [("grant_types", .arr [.str "authorization_code", .str "refresh_token"])], false⟩,
  ⟨866, .obj [("grant_types", .obj [("default", .arr []), ("essential", .bool true)])], .obj [("grant_types", .obj [("value", .arr [.str "authorization_code", .str "refresh_token"]), ("essential", .bool true)])], some (.obj [("grant_types", .obj [("default", .arr []), ("value", .arr [.str "authorization_code", .str "refresh_token"]), ("essential", .bool true)])]), .obj [("grant_types", .arr [])], .obj [("grant_types", .arr [.str "authorization_code", .str "refresh_token"])], false⟩,
  ⟨867, .obj [("grant_types", .obj [("default", .arr []), ("essential", .bool true)])], .obj [("grant_types", .obj [("value", .arr [.str "authorization_code", .str "refresh_token"])])], some (.obj [("grant_types", .obj [("default", .arr []), ("value", .arr [.str "authorization_code", .str "refresh_token"]), ("essential", .bool true)])]), .obj [("grant_types", .arr [])], .obj [("grant_types", .arr [.str "authorization_code", .str "refresh_token"])], false⟩,
  ⟨868, .obj [("grant_types", .obj [("default", .arr [])])], .obj [("grant_types", .obj [("value", .arr [.str "authorization_code", .str "refresh_token"]), ("essential", .bool true)])], some (.obj [("grant_types", .obj [("default", .arr []), ("value", .arr [.str "authorization_code", .str "refresh_token"]), ("essential", .bool true)])]), .obj [("grant_types", .arr [])], .obj [("grant_types", .arr [.str "authorization_code", .str "refresh_token"])], false⟩,
  ⟨869, .obj [("grant_types", .obj [("default", .arr [])])], .obj [("grant_types", .obj [("value", .arr [.str "authorization_code", .str "refresh_token"])])], some (.obj [("grant_types", .obj [("default", .arr []), ("value", .arr [.str "authorization_code", .str "refresh_token"])])]), .obj [("grant_types", .arr [])], .obj [("grant_types", .arr [.str "authorization_code", .str "refresh_token"])], false⟩,
  ⟨870, .obj [("grant_types", .obj [("default", .arr []), ("essential", .bool true)])], .obj [("grant_types", .obj [("value", .arr [.str "authorization_code", .str "refresh_token"]), ("essential", .bool true)])], some (.obj [("grant_types", .obj [("default", .arr []), ("value", .arr [.str "authorization_code", .str "refresh_token"]), ("essential", .bool true)])]), .obj [], .obj [("grant_types", .arr [.str "authorization_code", .str "refresh_token"])], false⟩,
  ⟨871, .obj [("grant_types", .obj [("default", .arr []), ("essential", .bool true)])], .obj [("grant_types", .obj [("value", .arr [.str "authorization_code", .str "refresh_token"])])], some (.obj [("grant_types", .obj [("default", .arr []), ("value", .arr [.str "authorization_code", .str "refresh_token"]), ("essential", .bool true)])]), .obj [], .obj [("grant_types", .arr [.str "authorization_code", .str "refresh_token"])], false⟩,
  ⟨872, .obj [("grant_types", .obj [("default", .arr [])])], .obj [("grant_types", .obj [("value", .arr [.str "authorization_code", .str "refresh_token"]), ("essential", .bool true)])], some (.obj [("grant_types", .obj [("default", .arr []), ("value", .arr [.str "authorization_code", .str "refresh_token"]), ("essential", .bool true)])]), .obj [], .obj [("grant_types", .arr [.str "authorization_code", .str "refresh_token"])], false⟩,
  ⟨873, .obj [("grant_types", .obj [("default", .arr [])])], .obj [("grant_types", .obj [("value", .arr [.str "authorization_code", .str "refresh_token"])])], some (.obj [("grant_types", .obj [("default", .arr []), ("value", .arr [.str "authorization_code", .str "refresh_token"])])]), .obj [], .obj [("grant_types", .arr [.str "authorization_code", .str "refresh_token"])], false⟩,
  ⟨874, .obj [("grant_types", .obj [("default", .arr [.str "authorization_code"]), ("essential", .bool true)])], .obj [("grant_types", .obj [("value", .arr [.str "authorization_code", .str "refresh_token"]), ("essential", .bool true)])], some (.obj [("grant_types", .obj [("default", .arr [.str "authorization_code"]), ("value", .arr [.str "authorization_code", .str "refresh_token"]), ("essential", .bool true)])]), .obj [("grant_types", .arr [.str "authorization_code"])], .obj [("grant_types", .arr [.str "authorization_code", .str "refresh_token"])], false⟩,
  ⟨875, .obj [("grant_types", .obj [("default", .arr [.str "authorization_code"]), ("essential", .bool true)])], .obj [("grant_types", .obj [("value", .arr [.str "authorization_code", .str "refresh_token"])])], some (.obj [("grant_types", .obj [("default", .arr [.str "authorization_code"]), ("value", .arr [.str "authorization_code", .str "refresh_token"]), ("essential", .bool true)])]), .obj [("grant_types", .arr [.str "authorization_code"])], .obj [("grant_types", .arr [.str "authorization_code", .str "refresh_token"])], false⟩,
  ⟨876, .obj [("grant_types", .obj [("default", .arr [.str "authorization_code"])])], .obj [("grant_types", .obj [("value", .arr [.str "authorization_code", .str "refresh_token"]), ("essential", .bool true)])], some (.obj [("grant_types", .obj [("default", .arr [.str "authorization_code"]), ("value", .arr [.str "authorization_code", .str "refresh_token"]), ("essential", .bool true)])]), .obj [("grant_types", .arr [.str "authorization_code"])], .obj [("grant_types", .arr [.str "authorization_code", .str "refresh_token"])], false⟩,
  ⟨877, .obj [("grant_types", .obj [("default", .arr [.str "authorization_code"])])], .obj [("grant_types", .obj [("value", .arr [.str "authorization_code", .str "refresh_token"])])], some (.obj [("grant_types", .obj [("default", .arr [.str "authorization_code"]), ("value", .arr [.str "authorization_code", .str "refresh_token"])])]), .obj [("grant_types", .arr [.str "authorization_code"])], .obj [("grant_types", .arr [.str "authorization_code", .str "refresh_token"])], false⟩,
  ⟨878, .obj [("grant_types", .obj [("default", .arr [.str "authorization_code"]), ("essential", .bool true)])], .obj [("grant_types", .obj [("value", .arr [.str "authorization_code", .str "refresh_token"]), ("essential", .bool true)])], some (.obj [("grant_types", .obj [("default", .arr [.str "authorization_code"]), ("value", .arr [.str "authorization_code", .str "refresh_token"]), ("essential", .bool true)])]), .obj [("grant_types", .arr [.str "password"])], .obj [("grant_types", .arr [.str "authorization_code", .str "refresh_token"])], false⟩,
  ⟨879, .obj [("grant_types", .obj [("default", .arr [.str "authorization_code"]), ("essential", .bool true)])], .obj [("grant_types", .obj [("value", .arr [.str "authorization_code", .str "refresh_token"])])], some (.obj [("grant_types", .obj [("default", .arr [.str "authorization_code"]), ("value", .arr [.str "authorization_code", .str "refresh_token"]), ("essential", .bool true)])]), .obj [("grant_types", .arr [.str "password"])], .obj [("grant_types", .arr [.str "authorization_code", .str "refresh_token"])], false⟩,
  ⟨880, .obj [("grant_types", .obj [("default", .arr [.str "authorization_code"])])], .obj [("grant_types", .obj [("value", .arr [.str "authorization_code", .str "refresh_token"]), ("essential", .bool true)])], some (.obj [("grant_types", .obj [("default", .arr [.str "authorization_code"]), ("value", .arr [.str "authorization_code", .str "refresh_token"]), ("essential", .bool true)])]), .obj [("grant_types", .arr [.str "password"])], .obj [("grant_types", .arr [.str "authorization_code", .str "refresh_token"])], false⟩,
  ⟨881, .obj [("grant_types", .obj [("default", .arr [.str "authorization_code"])])], .obj [("grant_types", .obj [("value", .arr [.str "authorization_code", .str "refresh_token"])])], some (.obj [("grant_types", .obj [("default", .arr [.str "authorization_code"]), ("value", .arr [.str "authorization_code", .str "refresh_token"])])]), .obj [("grant_types", .arr [.str "password"])], .obj [("grant_types", .arr [.str "authorization_code", .str "refresh_token"])], false⟩,
  ⟨882, .obj [("grant_types", .obj [("default", .arr [.str "authorization_code"]), ("essential", .bool true)])], .obj [("grant_types", .obj [("value", .arr [.str "authorization_code", .str "refresh_token"]), ("essential", .bool true)])], some (.obj [("grant_types", .obj [("default", .arr [.str "authorization_code"]), ("value", .arr [.str "authorization_code", .str "refresh_token"]), ("essential", .bool true)])]), .obj [("grant_types", .arr [.str "authorization_code", .str "refresh_token"])], .obj [("grant_types", .arr [.str "authorization_code", .str "refresh_token"])], false⟩,
  ⟨883, .obj [("grant_types", .obj [("default", .arr [.str "authorization_code"]), ("essential", .bool true)])], .obj [("grant_types", .obj [("value", .arr [.str "authorization_code", .str "refresh_token"])])], some (.obj [("grant_types", .obj [("default", .arr [.str "authorization_code"]), ("value", .arr [.str "authorization_code", .str "refresh_token"]), ("essential", .bool true)])]), .obj [("grant_types", .arr [.str "authorization_code", .str "refresh_token"])], .obj [("grant_types", .arr [.str "authorization_code", .str "refresh_token"])], false⟩,
  ⟨884, .obj [("grant_types", .obj [("default", .arr [.str "authorization_code"])])], .obj [("grant_types", .obj [("value", .arr [.str "authorization_code", .str "refresh_token"]), ("essential", .bool true)])], some (.obj [("grant_types", .obj [("default", .arr [.str "authorization_code"]), ("value", .arr [.str "authorization_code", .str "refresh_token"]), ("essential", .bool true)])]), .obj [("grant_types", .arr [.str "authorization_code", .str "refresh_token"])], .obj [("grant_types", .arr [.str "authorization_code", .str "refresh_token"])], false⟩,
  ⟨885, .obj [("grant_types", .obj [("default", .arr [.str "authorization_code"])])], .obj [("grant_types", .obj [("value", .arr [.str "authorization_code", .str "refresh_token"])])], some (.obj [("grant_types", .obj [("default", .arr [.str "authorization_code"]), ("value", .arr [.str "authorization_code", .str "refresh_token"])])]), .obj [("grant_types", .arr [.str "authorization_code", .str "refresh_token"])], .obj [("grant_types", .arr [.str "authorization_code", .str "refresh_token"])], false⟩,
  ⟨886, .obj [("grant_types", .obj [("default", .arr [.str "authorization_code"]), ("essential", .bool true)])], .obj [("grant_types", .obj [("value", .arr [.str "authorization_code", .str "refresh_token"]), ("essential", .bool true)])], some (.obj [("grant_types", .obj [("default", .arr [.str "authorization_code"]), ("value", .arr [.str "authorization_code", .str "refresh_token"]), ("essential", .bool true)])]), .obj [("grant_types", .arr [.str "authorization_code", .str "password"])], .obj [("grant_types", .arr [.str "authorization_code", .str "refresh_token"])], false⟩,
  ⟨887, .obj [("grant_types", .obj [("default", .arr [.str "authorization_code"]), ("essential", .bool true)])], .obj [("grant_types", .obj [("value", .arr [.str "authorization_code", .str "refresh_token"])])], some (.obj [("grant_types", .obj [("default", .arr [.str "authorization_code"]), ("value", .arr [.str "authorization_code", .str "refresh_token"]), ("essential", .bool true)])]), .obj [("grant_types", .arr [.str "authorization_code", .str "password"])], .obj [("grant_types", .arr [.str "authorization_code", .str "refresh_token"])], false⟩,
  ⟨888, .obj [("grant_types", .obj [("default", .arr [.str "authorization_code"])])], .obj [("grant_types", .obj [("value", .arr [.str "authorization_code", .str "refresh_token"]), ("essential", .bool true)])], some (.obj [("grant_types", .obj [("default", .arr [.str "authorization_code"]), ("value", .arr [.str "authorization_code", .str "refresh_token"]), ("essential", .bool true)])]), .obj [("grant_types", .arr [.str "authorization_code", .str "password"])], .obj [("grant_types", .arr [.str "authorization_code", .str "refresh_token"])], false⟩,
  ⟨889, .obj [("grant_types", .obj [("default", .arr [.str "authorization_code"])])], .obj [("grant_types", .obj [("value", .arr [.str "authorization_code", .str "refresh_token"])])], some (.obj [("grant_types", .obj [("default", .arr [.str "authorization_code"]), ("value", .arr [.str "authorization_code", .str "refresh_token"])])]), .obj [("grant_types", .arr [.str "authorization_code", .str "password"])], .obj [("grant_types", .arr [.str "authorization_code", .str "refresh_token"])], false⟩,
  ⟨890, .obj [("grant_types", .obj [("default", .arr [.str "authorization_code"]), ("essential", .bool true)])], .obj [("grant_types", .obj [("value", .arr [.str "authorization_code", .str "refresh_token"]), ("essential", .bool true)])], some (.obj [("grant_types", .obj [("default", .arr [.str "authorization_code"]), ("value", .arr [.str "authorization_code", .str "refresh_token"]), ("essential", .bool true)])]), .obj [("grant_types", .arr [])], .obj [("grant_types", .arr [.str "authorization_code", .str "refresh_token"])], false⟩,
  ⟨891, .obj [("grant_types", .obj [("default", .arr [.str "authorization_code"]), ("essential", .bool true)])], .obj [("grant_types", .obj [("value", .arr [.str "authorization_code", .str "refresh_token"])])], some (.obj [("grant_types", .obj [("default", .arr [.str "authorization_code"]), ("value", .arr [.str "authorization_code", .str "refresh_token"]), ("essential", .bool true)])]), .obj [("grant_types", .arr [])], .obj [("grant_types", .arr [.str "authorization_code", .str "refresh_token"])], false⟩,
  ⟨892, .obj [("grant_types", .obj [("default", .arr [.str "authorization_code"])])], .obj [("grant_types", .obj [("value", .arr [.str "authorization_code", .str "refresh_token"]), ("essential", .bool true)])], some (.obj [("grant_types", .obj [("default", .arr [.str "authorization_code"]), ("value", .arr [.str "authorization_code", .str "refresh_token"]), ("essential", .bool true)])]), .obj [("grant_types", .arr [])], .obj [("grant_types", .arr [.str "authorization_code", .str "refresh_token"])], false⟩,
  ⟨893, .obj [("grant_types", .obj [("default", .arr [.str "authorization_code"])])], .obj [("grant_types", .obj [("value", .arr [.str "authorization_code", .str "refresh_token"])])], some (.obj [("grant_types", .obj [("default", .arr [.str "authorization_code"]), ("value", .arr [.str "authorization_code", .str "refresh_token"])])]), .obj [("grant_types", .arr [])], .obj [("grant_types", .arr [.str "authorization_code", .str "refresh_token"])], false⟩,
  ⟨894, .obj [("grant_types", .obj [("default", .arr [.str "authorization_code"]), ("essential", .bool true)])], .obj [("grant_types", .obj [("value", .arr [.str "authorization_code", .str "refresh_token"]), ("essential", .bool true)])], some (.obj [("grant_types", .obj [("default", .arr [.str "authorization_code"]), ("value", .arr [.str "authorization_code", .str "refresh_token"]), ("essential", .bool true)])]), .obj [], .obj [("grant_types", .arr [.str "authorization_code", .str "refresh_token"])], false⟩,
  ⟨895, .obj [("grant_types", .obj [("default", .arr [.str "authorization_code"]), ("essential", .bool true)])], .obj [("grant_types", .obj [("value", .arr [.str "authorization_code", .str "refresh_token"])])], some (.obj [("grant_types", .obj [("default", .arr [.str "authorization_code"]), ("value", .arr [.str "authorization_code", .str "refresh_token"]), ("essential", .bool true)])]), .obj [], .obj [("grant_types", .arr [.str "authorization_code", .str "refresh_token"])], false⟩,
  ⟨896, .obj [("grant_types", .obj [("default", .arr [.str "authorization_code"])])], .obj [("grant_types", .obj [("value", .arr [.str "authorization_code", .str "refresh_token"]), ("essential", .bool true)])], some (.obj [("grant_types", .obj [("default", .arr [.str "authorization_code"]), ("value", .arr [.str "authorization_code", .str "refresh_token"]), ("essential", .bool true)])]), .obj [], .obj [("grant_types", .arr [.str "authorization_code", .str "refresh_token"])], false⟩,
  ⟨897, .obj [("grant_types", .obj [("default", .arr [.str "authorization_code"])])], .obj [("grant_types", .obj [("value", .arr [.str "authorization_code", .str "refresh_token"])])], some (.obj [("grant_types", .obj [("default", .arr [.str "authorization_code"]), ("value", .arr [.str "authorization_code", .str "refresh_token"])])]), .obj [], .obj [("grant_types", .arr [.str "authorization_code", .str "refresh_token"])], false⟩,
  ⟨898, .obj [("require_auth_time", .obj [("default", .bool true)])], .obj [("require_auth_time", .obj [("default", .bool true)])], some (.obj [("require_auth_time", .obj [("default", .bool true)])]), .obj [("require_auth_time", .bool true)], .obj [("require_auth_time", .bool true)], false⟩,
  ⟨899, .obj [("require_auth_time", .obj [("default", .bool true)])], .obj [("require_auth_time", .obj [("default", .bool false)])], none, .obj [("require_auth_time", .bool true)], .obj [], true⟩,
  ⟨900, .obj [("require_auth_time", .obj [("default", .bool false)])], .obj [("require_auth_time", .obj [("default", .bool true)])], none, .obj [("require_auth_time", .bool true)], .obj [], true⟩,
  ⟨901, .obj [("require_auth_time", .obj [("default", .bool false)])], .obj [("require_auth_time", .obj [("default", .bool false)])], some (.obj [("require_auth_time", .obj [("default", .bool false)])]), .obj [("require_auth_time", .bool true)], .obj [("require_auth_time", .bool true)], false⟩,
  ⟨902, .obj [("require_auth_time", .obj [("default", .bool true)])], .obj [("require_auth_time", .obj [("default", .bool true)])], some (.obj [("require_auth_time", .obj [("default", .bool true)])]), .obj [("require_auth_time", .bool false)], .obj [("require_auth_time", .bool false)], false⟩,
  ⟨903, .obj [("require_auth_time", .obj [("default", .bool true)])], .obj [("require_auth_time", .obj [("default", .bool false)])], none, .obj [("require_auth_time", .bool false)], .obj [], true⟩,
  ⟨904, .obj [("require_auth_time", .obj [("default", .bool false)])], .obj [("require_auth_time", .obj [("default", .bool true)])], none, .obj [("require_auth_time", .bool false)], .obj [], true⟩,
  ⟨905, .obj [("require_auth_time", .obj [("default", .bool false)])], .obj [("require_auth_time", .obj [("default", .bool false)])], some (.obj [("require_auth_time", .obj [("default", .bool false)])]), .obj [("require_auth_time", .bool false)], .obj [("require_auth_time", .bool false)], false⟩,
  ⟨906, .obj [("require_auth_time", .obj [("default", .bool true)])], .obj [("require_auth_time", .obj [("default", .bool true)])], some (.obj [("require_auth_time", .obj [("default", .bool true)])]), .obj [("require_auth_time", .bool true)], .obj [("require_auth_time", .bool true)], false⟩,
  ⟨907, .obj [("require_auth_time", .obj [("default", .bool true)])], .obj [("require_auth_time", .obj [("default", .bool false)])], none, .obj [("require_auth_time", .bool true)], .obj [], true⟩,
  ⟨908, .obj [("require_auth_time", .obj [("default", .bool false)])], .obj [("require_auth_time", .obj [("default", .bool true)])], none, .obj [("require_auth_time", .bool true)], .obj [], true⟩,
  ⟨909, .obj [("require_auth_time", .obj [("default", .bool false)])], .obj [("require_auth_time", .obj [("default", .bool false)])], some (.obj [("require_auth_time", .obj [("default", .bool false)])]), .obj [("require_auth_time", .bool true)], .obj [("require_auth_time", .bool true)], false⟩,
  ⟨910, .obj [("require_auth_time", .obj [("default", .bool true)])], .obj [("require_auth_time", .obj [("default", .bool true)])], some (.obj [("require_auth_time", .obj [("default", .bool true)])]), .obj [("require_auth_time", .bool false)], .obj [("require_auth_time", .bool false)], false⟩,
  ⟨911, .obj [("require_auth_time", .obj [("default", .bool true)])], .obj [("require_auth_time", .obj [("default", .bool false)])], none, .obj [("require_auth_time", .bool false)], .obj [], true⟩,
  ⟨912, .obj [("require_auth_time", .obj [("default", .bool false)])], .obj [("require_auth_time", .obj [("default", .bool true)])], none, .obj [("require_auth_time", .bool false)], .obj [], true⟩,
  ⟨913, .obj [("require_auth_time", .obj [("default", .bool false)])], .obj [("require_auth_time", .obj [("default", .bool false)])], some (.obj [("require_auth_time", .obj [("default", .bool false)])]), .obj [("require_auth_time", .bool false)], .obj [("require_auth_time", .bool false)], false⟩,
  ⟨914, .obj [("require_auth_time", .obj [("default", .bool true)])], .obj [("require_auth_time", .obj [("default", .bool true)])], some (.obj [("require_auth_time", .obj [("default", .bool true)])]), .obj [("require_auth_time", .bool true)], .obj [("require_auth_time", .bool true)], false⟩,
  ⟨915, .obj [("require_auth_time", .obj [("default", .bool true)])], .obj [("require_auth_time", .obj [("default", .bool false)])], none, .obj [("require_auth_time", .bool true)], .obj [], true⟩,
  ⟨916, .obj [("require_auth_time", .obj [("default", .bool false)])], .obj [("require_auth_time", .obj [("default", .bool true)])], none, .obj [("require_auth_time", .bool true)], .obj [], true⟩,
  ⟨917, .obj [("require_auth_time", .obj [("default", .bool false)])], .obj [("require_auth_time", .obj [("default", .bool false)])], some (.obj [("require_auth_time", .obj [("default", .bool false)])]), .obj [("require_auth_time", .bool true)], .obj [("require_auth_time", .bool true)], false⟩,
  ⟨918, .obj [("require_auth_time", .obj [("default", .bool true)])], .obj [("require_auth_time", .obj [("default", .bool true)])], some (.obj [("require_auth_time", .obj [("default", .bool true)])]), .obj [("require_auth_time", .bool false)], .obj [("require_auth_time", .bool false)], false⟩,
  ⟨919, .obj [("require_auth_time", .obj [("default", .bool true)])], .obj [("require_auth_time", .obj [("default", .bool false)])], none, .obj [("require_auth_time", .bool false)], .obj [], true⟩,
  ⟨920, .obj [("require_auth_time", .obj [("default", .bool false)])], .obj [("require_auth_time", .obj [("default", .bool true)])], none, .obj [("require_auth_time", .bool false)], .obj [], true⟩,
  ⟨921, .obj [("require_auth_time", .obj [("default", .bool false)])], .obj [("require_auth_time", .obj [("default", .bool false)])], some (.obj [("require_auth_time", .obj [("default", .bool false)])]), .obj [("require_auth_time", .bool false)], .obj [("require_auth_time", .bool false)], false⟩,
  ⟨922, .obj [("grant_types", .obj [("default", .arr []), ("essential", .bool true)])], .obj [("grant_types", .obj [("add", .arr [.str "authorization_code"]), ("essential", .bool true)])], some (.obj [("grant_types", .obj [("add", .arr [.str "authorization_code"]), ("default", .arr []), ("essential", .bool true)])]), .obj [("grant_types", .arr [.str "authorization_code"])], .obj [("grant_types", .arr [.str "authorization_code"])], false⟩,
  ⟨923, .obj [("grant_types", .obj [("default", .arr []), ("essential", .bool true)])], .obj [("grant_types", .obj [("add", .arr [.str "authorization_code"])])], some (.obj [("grant_types", .obj [("add", .arr [.str "authorization_code"]), ("default", .arr []), ("essential", .bool true)])]), .obj [("grant_types", .arr [.str "authorization_code"])], .obj [("grant_types", .arr [.str "authorization_code"])], false⟩,
  ⟨924, .obj [("grant_types", .obj [("default", .arr [])])], .obj [("grant_types", .obj [("add", .arr [.str "authorization_code"]), ("essential", .bool true)])], some (.obj [("grant_types", .obj [("add", .arr [.str "authorization_code"]), ("default", .arr []), ("essential", .bool true)])]), .obj [("grant_types", .arr [.str "authorization_code"])], .obj [("grant_types", .arr [.str "authorization_code"])], false⟩,
  ⟨925, .obj [("grant_types", .obj [("default", .arr [])])], .obj [("grant_types", .obj [("add", .arr [.str "authorization_code"])])], some (.obj [("grant_types", .obj [("add", .arr [.str "authorization_code"]), ("default", .arr [])])]), .obj [("grant_types", .arr [.str "authorization_code"])], .obj [("grant_types", .arr [.str "authorization_code"])], false⟩,
  ⟨926, .obj [("grant_types", .obj [("default", .arr []), ("essential", .bool true)])], .obj [("grant_types", .obj [("add", .arr [.str "authorization_code"]), ("essential", .bool true)])], some (.obj [("grant_types", .obj [("add", .arr [.str "authorization_code"]), ("default", .arr []), ("essential", .bool true)])]), .obj [("grant_types", .arr [.str "password"])], .obj [("grant_types", .arr [.str "password", .str "authorization_code"])], false⟩,
  ⟨927, .obj [("grant_types", .obj [("default", .arr []), ("essential", .bool true)])], .obj [("grant_types", .obj [("add", .arr [.str "authorization_code"])])], some (.obj [("grant_types", .obj [("add", .arr [.str "authorization_code"]), ("default", .arr []), ("essential", .bool true)])]), .obj [("grant_types", .arr [.str "password"])], .obj [("grant_types", .arr [.str "password", .str "authorization_code"])], false⟩,
  ⟨928, .obj [("grant_types", .obj [("default", .arr [])])], .obj [("grant_types", .obj [("add", .arr [.str "authorization_code"]), ("essential", .bool true)])], some (.obj [("grant_types", .obj [("add", .arr [.str "authorization_code"]), ("default", .arr []), ("essential", .bool true)])]), .obj [("grant_types", .arr [.str "password"])], .obj [("grant_types", .arr [.str "password", .str "authorization_code"])], false⟩,
  ⟨929, .obj [("grant_types", .obj [("default", .arr [])])], .obj [("grant_types", .obj [("add", .arr [.str "authorization_code"])])], some (.obj [("grant_types", .obj [("add", .arr [.str "authorization_code"]), ("default", .arr [])])]), .obj [("grant_types", .arr [.str "password"])], .obj [("grant_types", .arr [.str "password", .str "authorization_code"])], false⟩,
  ⟨930, .obj [("grant_types", .obj [("default", .arr []), ("essential", .bool true)])], .obj [("grant_types", .obj [("add", .arr [.str "authorization_code"]), ("essential", .bool true)])], some (.obj [("grant_types", .obj [("add", .arr [.str "authorization_code"]), ("default", .arr []), ("essential", .bool true)])]), .obj [("grant_types", .arr [.str "authorization_code", .str "refresh_token"])], .obj [("grant_types", .arr [.str "authorization_code", .str "refresh_token"])], false⟩,
  ⟨931, .obj [("grant_types", .obj [("default", .arr []), ("essential", .bool true)])], .obj [("grant_types", .obj [("add", .arr [.str "authorization_code"])])], some (.obj [("grant_types", .obj [("add", .arr [.str "authorization_code"]), ("default", .arr []), ("essential", .bool true)])]), .obj [("grant_types", .arr [.str "authorization_code", .str "refresh_token"])], .obj [("grant_types", .arr [.str "authorization_code", .str "refresh_token"])], false⟩,
  ⟨932, .obj [("grant_types", .obj [("default", .arr [])])], .obj [("grant_types", .obj [("add", .arr [.str "authorization_code"]), ("essential", .bool true)])], some (.obj [("grant_types", .obj [("add", .arr [.str "authorization_code"]), ("default", .arr []), ("essential", .bool true)])]), .obj [("grant_types", .arr [.str "authorization_code", .str "refresh_token"])], .obj [("grant_types", .arr [.str "authorization_code", .str "refresh_token"])], false⟩,
  ⟨933, .obj [("grant_types", .obj [("default", .arr [])])], .obj [("grant_types", .obj [("add", .arr [.str "authorization_code"])])], some (.obj [("grant_types", .obj [("add", .arr [.str "authorization_code"]), ("default", .arr [])])]), .obj [("grant_types", .arr [.str "authorization_code", .str "refresh_token"])], .obj [("grant_types", .arr [.str "authorization_code", .str "refresh_token"])], false⟩,
  ⟨934, .obj [("grant_types", .obj [("default", .arr []), ("essential", .bool true)])], .obj [("grant_types", .obj [("add", .arr [.str "authorization_code"]), ("essential", .bool true)])], some (.obj [("grant_types", .obj [("add", .arr [.str "authorization_code"]), ("default", .arr []), ("essential", .bool true)])]), .obj [("grant_types", .arr [.str "authorization_code", .str "password"])], .obj [("grant_types", .arr [.str "authorization_code", .str "password"])], false⟩,
  ⟨935, .obj [("grant_types", .obj [("default", .arr []), ("essential", .bool true)])], .obj [("grant_types", .obj [("add", .arr [.str "authorization_code"])])], some (.obj [("grant_types", .obj [("add", .arr [.str "authorization_code"]), ("default", .arr []), ("essential", .bool true)])]), .obj [("grant_types", .arr [.str "authorization_code", .str "password"])], .obj [("grant_types", .arr [.str "authorization_code", .str "password"])], false⟩,
  ⟨936, .obj [("grant_types", .obj [("default", .arr [])])], .obj [("grant_types", .obj [("add", .arr [.str "authorization_code"]), ("essential", .bool true)])], some (.obj [("grant_types", .obj [("add", .arr [.str "authorization_code"]), ("default", .arr []), ("essential", .bool true)])]), .obj [("grant_types", .arr [.str "authorization_code", .str "password"])], .obj [("grant_types", .arr [.str "authorization_code", .str "password"])], false⟩,
  ⟨937, .obj [("grant_types", .obj [("default", .arr [])])], .obj [("grant_types", .obj [("add", .arr [.str "authorization_code"])])], some (.obj [("grant_types", .obj [("add", .arr [.str "authorization_code"]), ("default", .arr [])])]), .obj [("grant_types", .arr [.str "authorization_code", .str "password"])], .obj [("grant_types", .arr [.str "authorization_code", .str "password"])], false⟩,
  ⟨938, .obj [("grant_types", .obj [("default", .arr []), ("essential", .bool true)])], .obj [("grant_types", .obj [("add", .arr [.str "authorization_code"]), ("essential", .bool true)])], some (.obj [("grant_types", .obj [("add", .arr [.str "authorization_code"]), ("default", .arr []), ("essential", .bool true)])]), .obj [("grant_types", .arr [])], .obj [("grant_types", .arr [.str "authorization_code"])], false⟩,
  ⟨939, .obj [("grant_types", .obj [("default", .arr []), ("essential", .bool true)])], .obj [("grant_types", .obj [("add", .arr [.str "authorization_code"])])], some (.obj [("grant_types", .obj [("add", .arr [.str "authorization_code"]), ("default", .arr []), ("essential", .bool true)])]), .obj [("grant_types", .arr [])], .obj [("grant_types", .arr [.str "authorization_code"])], false⟩,
  ⟨940, .obj [("grant_types", .obj [("default", .arr [])])], .obj [("grant_types", .obj [("add", .arr [.str "authorization_code"]), ("essential", .bool true)])], some (.obj [("grant_types", .obj [("add", .arr [.str "authorization_code"]), ("default", .arr []), ("essential", .bool true)])]), .obj [("grant_types", .arr [])], .obj [("grant_types", .arr [.str "authorization_code"])], false⟩,
  ⟨941, .obj [("grant_types", .obj [("default", .arr [])])], .obj [("grant_types", .obj [("add", .arr [.str "authorization_code"])])], some (.obj [("grant_types", .obj [("add", .arr [.str "authorization_code"]), ("default", .arr [])])]), .obj [("grant_types", .arr [])], .obj [("grant_types", .arr [.str "authorization_code"])], false⟩,
  ⟨942, .obj [("grant_types", .obj [("default", .arr []), ("essential", .bool true)])], .obj [("grant_types", .obj [("add", .arr [.str "authorization_code"]), ("essential", .bool true)])], some (.obj [("grant_types", .obj [("add", .arr [.str "authorization_code"]), ("default", .arr []), ("essential", .bool true)])]), .obj [], .obj [("grant_types", .arr [.str "authorization_code"])], false⟩,
  ⟨943, .obj [("grant_types", .obj [("default", .arr []), ("essential", .bool true)])], .obj [("grant_types", .obj [("add", .arr [.str "authorization_code"])])], some (.obj [("grant_types", .obj [("add", .arr [.str "authorization_code"]), ("default", .arr []), ("essential", .bool true)])]), .obj [], .obj [("grant_types", .arr [.str "authorization_code"])], false⟩,
  ⟨944, .obj [("grant_types", .obj [("default", .arr [])])], .obj [("grant_types", .obj [("add", .arr [.str "authorization_code"]), ("essential", .bool true)])], some (.obj [("grant_types", .obj [("add", .arr [.str "authorization_code"]), ("default", .arr []), ("essential", .bool true)])]), .obj [], .obj [("grant_types", .arr [.str "authorization_code"])], false⟩,
  ⟨945, .obj [("grant_types", .obj [("default", .arr [])])], .obj [("grant_types", .obj [("add", .arr [.str "authorization_code"])])], some (.obj [("grant_types", .obj [("add", .arr [.str "authorization_code"]), ("default", .arr [])])]), .obj [], .obj [("grant_types", .arr [.str "authorization_code"])], false⟩,
  ⟨946, .obj [("grant_types", .obj [("default", .arr []), ("essential", .bool true)])], .obj [("grant_types", .obj [("add", .arr [.str "authorization_code", .str "refresh_token"]), ("essential", .bool true)])], some (.obj [("grant_types", .obj [("add", .arr [.str "authorization_code", .str "refresh_token"]), ("default", .arr []), ("essential", .bool true)])]), .obj [("grant_types", .arr [.str "authorization_code"])], .obj [("grant_types", .arr [.str "authorization_code", .str "refresh_token"])], false⟩,
  ⟨947, .obj [("grant_types", .obj [("default", .arr []), ("essential", .bool true)])], .obj [("grant_types", .obj [("add", .arr [.str "authorization_code", .str "refresh_token"])])], some (.obj [("grant_types", .obj [("add", .arr [.str "authorization_code", .str "refresh_token"]), ("default", .arr []), ("essential", .bool true)])]), .obj [("grant_types", .arr [.str "authorization_code"])], .obj [("grant_types", .arr [.str "authorization_code", .str "refresh_token"])], false⟩,
  ⟨948, .obj [("grant_types", .obj [("default", .arr [])])], .obj [("grant_types", .obj [("add", .arr [.str "authorization_code", .str "refresh_token"]), ("essential", .bool true)])], some (.obj [("grant_types", .obj [("add", .arr [.str "authorization_code", .str "refresh_token"]), ("default", .arr []), ("essential", .bool true)])]), .obj [("grant_types", .arr [.str "authorization_code"])], .obj [("grant_types", .arr [.str "authorization_code", .str "refresh_token"])], false⟩,
  ⟨949, .obj [("grant_types", .obj [("default", .arr [])])], .obj [("grant_types", .obj [("add", .arr [.str "authorization_code", .str "refresh_token"])])], some (.obj [("grant_types", .obj [("add", .arr [.str "authorization_code", .str "refresh_token"]), ("default", .arr [])])]), .obj [("grant_types", .arr [.str "authorization_code"])], .obj [("grant_types", .arr [.str "authorization_code", .str "refresh_token"])], false⟩,
  ⟨950, .obj [("grant_types", .obj [("default", .arr []), ("essential", .bool true)])], .obj [("grant_types", .obj [("add", .arr [.str "authorization_code", .str "refresh_token"]), ("essential", .bool true)])], some (.obj [("grant_types", .obj [("add", .arr [.str "authorization_code", .str "refresh_token"]), ("default", .arr []), ("essential", .bool true)])]), .obj [("grant_types", .arr [.str "password"])], .obj [("grant_types", .arr [.str "password", .str "authorization_code", .str "refresh_token"])], false⟩,
  ⟨951, .obj [("grant_types", .obj [("default", .arr []), ("essential", .bool true)])], .obj [("grant_types", .obj [("add", .arr [.str "authorization_code", .str "refresh_token"])])], some (.obj [("grant_types", .obj [("add", .arr [.str "authorization_code", .str "refresh_token"]), ("default", .arr []), ("essential", .bool true)])]), .obj [("grant_types", .arr [.str "password"])], .obj [("grant_types", .arr [.str "password", .str "authorization_code", .str "refresh_token"])], false⟩,
  ⟨952, .obj [("grant_types", .obj [("default", .arr [])])], .obj [("grant_types", .obj [("add", .arr [.str "authorization_code", .str "refresh_token"]), ("essential", .bool true)])], some (.obj [("grant_types", .obj [("add", .arr [.str "authorization_code", .str "refresh_token"]), ("default", .arr []), ("essential", .bool true)])]), .obj [("grant_types", .arr [.str "password"])], .obj [("grant_types", .arr [.str "password", .str "authorization_code", .str "refresh_token"])], false⟩,
  ⟨953, .obj [("grant_types", .obj [("default", .arr [])])], .obj [("grant_types", .obj [("add", .arr [.str "authorization_code", .str "refresh_token"])])], some (.obj [("grant_types", .obj [("add", .arr [.str "authorization_code", .str "refresh_token"]), ("default", .arr [])])]), .obj [("grant_types", .arr [.str "password"])], .obj [("grant_types", .arr [.str "password", .str "authorization_code", .str "refresh_token"])], false⟩,
  ⟨954, .obj [("grant_types", .obj [("default", .arr []), ("essential", .bool true)])], .obj [("grant_types", .obj [("add", .arr [.str "authorization_code", .str "refresh_token"]), ("essential", .bool true)])], some (.obj [("grant_types", .obj [("add", .arr [.str "authorization_code", .str "refresh_token"]), ("default", .arr []), ("essential", .bool true)])]), .obj [("grant_types", .arr [.str "authorization_code", .str "refresh_token"])], .obj [("grant_types", .arr [.str "authorization_code", .str "refresh_token"])], false⟩,
  ⟨955, .obj [("grant_types", .obj [("default", .arr []), ("essential", .bool true)])], .obj [("grant_types", .obj [("add", .arr [.str "authorization_code", .str "refresh_token"])])], some (.obj [("grant_types", .obj [("add", .arr [.str "authorization_code", .str "refresh_token"]), ("default", .arr []), ("essential", .bool true)])]), .obj [("grant_types", .arr [.str "authorization_code", .str "refresh_token"])], .obj [("grant_types", .arr [.str "authorization_code", .str "refresh_token"])], false⟩,
  ⟨956, .obj [("grant_types", .obj [("default", .arr [])])], .obj [("grant_types", .obj [("add", .arr [.str "authorization_code", .str "refresh_token"]), ("essential", .bool true)])], some (.obj [("grant_types", .obj [("add", .arr [.str "authorization_code", .str "refresh_token"]), ("default", .arr []), ("essential", .bool true)])]), .obj [("grant_types", .arr [.str "authorization_code", .str "refresh_token"])], .obj [("grant_types", .arr [.str "authorization_code", .str "refresh_token"])], false⟩,
  ⟨957, .obj [("grant_types", .obj [("default", .arr [])])], .obj [("grant_types", .obj [("add", .arr [.str "authorization_code", .str "refresh_token"])])], some (.obj [("grant_types", .obj [("add", .arr [.str "authorization_code", .str "refresh_token"]), ("default", .arr [])])]), .obj [("grant_types", .arr [.str "authorization_code", .str "refresh_token"])], .obj [("grant_types", .arr [.str "authorization_code", .str "refresh_token"])], false⟩,
  ⟨958, .obj [("grant_types", .obj [("default", .arr []), ("essential", .bool true)])], .obj [("grant_types", .obj [("add", .arr [.str "authorization_code", .str "refresh_token"]), ("essential", .bool true)])], some (.obj [("grant_types", .obj [("add", .arr [.str "authorization_code", .str "refresh_token"]), ("default", .arr []), ("essential", .bool true)])]), .obj [("grant_types", .arr [.str "authorization_code", .str "password"])], .obj [("grant_types", .arr [.str "authorization_code", .str "password", .str "refresh_token"])], false⟩,
  ⟨959, .obj [("grant_types", .obj [("default", .arr []), ("essential", .bool true)])], .obj [("grant_types", .obj [("add", .arr [.str "authorization_code", .str "refresh_token"])])], some (.obj [("grant_types", .obj [("add", .arr [.str "authorization_code", .str "refresh_token"]), ("default", .arr []), ("essential", .bool true)])]), .obj [("grant_types", .arr [.str "authorization_code", .str "password"])], .obj [("grant_types", .arr [.str "authorization_code", .str "password", .str "refresh_token"])], false⟩,
  ⟨960, .obj [("grant_types", .obj [("default", .arr [])])], .obj [("grant_types", .obj [("add", .arr [.str "authorization_code", .str "refresh_token"]), ("essential", .bool true)])], some (.obj [("grant_types", .obj [("add", .arr [.str "authorization_code", .str "refresh_token"]), ("default", .arr []), ("essential", .bool true)])]), .obj [("grant_types", .arr [.str "authorization_code", .str "password"])], .obj [("grant_types", .arr [.str "authorization_code", .str "password", .str "refresh_token"])], false⟩,
  ⟨961, .obj [("grant_types", .obj [("default", .arr [])])], .obj [("grant_types", .obj [("add", .arr [.str "authorization_code", .str "refresh_token"])])], some (.obj [("grant_types", .obj [("add", .arr [.str "authorization_code", .str "refresh_token"]), ("default", .arr [])])]), .obj [("grant_types", .arr [.str "authorization_code", .str "password"])], .obj [("grant_types", .arr [.str "authorization_code", .str "password", .str "refresh_token"])], false⟩,
  ⟨962, .obj [("grant_types", .obj [("default", .arr []), ("essential", .bool true)])], .obj [("grant_types", .obj [("add", .arr [.str "authorization_code", .str "refresh_token"]), ("essential", .bool true)])], some (.obj [("grant_types", .obj [("add", .arr [.str "authorization_code", .str "refresh_token"]), ("default", .arr []), ("essential", .bool true)])]), .obj [("grant_types", .arr [])], .obj [("grant_types", .arr [.str "authorization_code", .str "refresh_token"])], false⟩,
  ⟨963, .obj [("grant_types", .obj [("default", .arr []), ("essential", .bool true)])], .obj [("grant_types", .obj [("add", .arr [.str "authorization_code", .str "refresh_token"])])], some (.obj [("grant_types", .obj [("add", .arr [.str "authorization_code", .str "refresh_token"]), ("default", .arr []), ("essential", .bool true)])]), .obj [("grant_types", .arr [])], .obj [("grant_types", .arr [.str "authorization_code", .str "refresh_token"])], false⟩,
  ⟨964, .obj [("grant_types", .obj [("default", .arr [])])], .obj [("grant_types", .obj [("add", .arr [.str "authorization_code", .str "refresh_token"]), ("essential", .bool true)])], some (.obj [("grant_types", .obj [("add", .arr [.str "authorization_code", .str "refresh_token"]), ("default", .arr []), ("essential", .bool true)])]), .obj [("grant_types", .arr [])], .obj [("grant_types", .arr [.str "authorization_code", .str "refresh_token"])], false⟩,
  ⟨965, .obj [("grant_types", .obj [("default", .arr [])])], .obj [("grant_types", .obj [("add", .arr [.str "authorization_code", .str "refresh_token"])])], some (.obj [("grant_types", .obj [("add", .arr [.str "authorization_code", .str "refresh_token"]), ("default", .arr [])])]), .obj [("grant_types", .arr [])], .obj [("grant_types", .arr [.str "authorization_code", .str "refresh_token"])], false⟩,
  ⟨966, .obj [("grant_types", .obj [("default", .arr []), ("essential", .bool true)])], .obj [("grant_types", .obj [("add", .arr [.str "authorization_code", .str "refresh_token"]), ("essential", .bool true)])], some (.obj [("grant_types", .obj [("add", .arr [.str "authorization_code", .str "refresh_token"]), ("default", .arr []), ("essential", .bool true)])]), .obj [], .obj [("grant_types", .arr [.str "authorization_code", .str "refresh_token"])], false⟩,
  ⟨967, .obj [("grant_types", .obj [("default", .arr []), ("essential", .bool true)])], .obj [("grant_types", .obj [("add", .arr [.str "authorization_code", .str "refresh_token"])])], some (.obj [("grant_types", .obj [("add", .arr [.str "authorization_code", .str "refresh_token"]), ("default", .arr []), ("essential", .bool true)])]), .obj [], .obj [("grant_types", .arr [.str "authorization_code", .str "refresh_token"])], false⟩,
  ⟨968, .obj [("grant_types", .obj [("default", .arr [])])], .obj [("grant_types", .obj [("add", .arr [.str "authorization_code", .str "refresh_token"]), ("essential", .bool true)])], some (.obj [("grant_types", .obj [("add", .arr [.str "authorization_code", .str "refresh_token"]), ("default", .arr []), ("essential", .bool true)])]), .obj [], .obj [("grant_types", .arr [.str "authorization_code", .str "refresh_token"])], false⟩,
  ⟨969, .obj [("grant_types", .obj [("default", .arr [])])], .obj [("grant_types", .obj [("add", .arr [.str "authorization_code", .str "refresh_token"])])], some (.obj [("grant_types", .obj [("add", .arr [.str "authorization_code", .str "refresh_token"]), ("default", .arr [])])]), .obj [], .obj [("grant_types", .arr [.str "authorization_code", .str "refresh_token"])], false⟩,
  ⟨970, .obj [("grant_types", .obj [("default", .arr [.str "authorization_code"]), ("essential", .bool true)])], .obj [("grant_types", .obj [("add", .arr [.str "authorization_code", .str "refresh_token"]), ("essential", .bool true)])], some (.obj [("grant_types", .obj [("add", .arr [.str "authorization_code", .str "refresh_token"]), ("default", .arr [.str "authorization_code"]), ("essential", .bool true)])]), .obj [("grant_types", .arr [.str "authorization_code"])], .obj [("grant_types", .arr [.str "authorization_code", .str "refresh_token"])], false⟩,
  ⟨971, .obj [("grant_types", .obj [("default", .arr [.str "authorization_code"]), ("essential", .bool true)])], .obj [("grant_types", .obj [("add", .arr [.str "authorization_code", .str "refresh_token"])])], some (.obj [("grant_types", .obj [("add", .arr [.str "authorization_code", .str "refresh_token"]), ("default", .arr [.str "authorization_code"]), ("essential", .bool true)])]), .obj [("grant_types", .arr [.str "authorization_code"])], .obj [("grant_types", .arr [.str "authorization_code", .str "refresh_token"])], false⟩,
  ⟨972, .obj [("grant_types", .obj [("default", .arr [.str "authorization_code"])])], .obj [("grant_types", .obj [("add", .arr [.str "authorization_code", .str "refresh_token"]), ("essential", .bool true)])], some (.obj [("grant_types", .obj [("add", .arr [.str "authorization_code", .str "refresh_token"]), ("default", .arr [.str "authorization_code"]), ("essential", .bool true)])]), .obj [("grant_types", .arr [.str "authorization_code"])], .obj [("grant_types", .arr [.str "authorization_code", .str "refresh_token"])], false⟩,
  ⟨973, .obj [("grant_types", .obj [("default", .arr [.str "authorization_code"])])], .obj [("grant_types", .obj [("add", .arr [.str "authorization_code", .str "refresh_token"])])], some (.obj [("grant_types", .obj [("add", .arr [.str "authorization_code", .str "refresh_token"]), ("default", .arr [.str "authorization_code"])])]), .obj [("grant_types", .arr [.str "authorization_code"])], .obj [("grant_types", .arr [.str "authorization_code", .str "refresh_token"])], false⟩,
  ⟨974, .obj [("grant_types", .obj [("default", .arr [.str "authorization_code"]), ("essential", .bool true)])], .obj [("grant_types", .obj [("add", .arr [.str "authorization_code", .str "refresh_token"]), ("essential", .bool true)])], some (.obj [("grant_types", .obj [("add", .arr [.str "authorization_code", .str "refresh_token"]), ("default", .arr [.str "authorization_code"]), ("essential", .bool true)])]), .obj [("grant_types", .arr [.str "password"])], .obj [("grant_types", .arr [.str "password", .str "authorization_code", .str "refresh_token"])], false⟩,
  ⟨975, .obj [("grant_types", .obj [("default", .arr [.str "authorization_code"]), ("essential", .bool true)])], .obj [("grant_types", .obj [("add", .arr [.str "authorization_code", .str "refresh_token"])])], some (.obj [("grant_types", .obj [("add", .arr [.str "authorization_code", .str "refresh_token"]), ("default", .arr [.str "authorization_code"]), ("essential", .bool true)])]), .obj [("grant_types", .arr [.str "password"])], .obj [("grant_types", .arr [.str "password", .str "authorization_code", .str "refresh_token"])], false⟩,
  ⟨976, .obj [("grant_types", .obj [("default", .arr [.str "authorization_code"])])], .obj [("grant_types", .obj [("add", .arr [.str "authorization_code", .str "refresh_token"]), ("essential", .bool true)])], some (.obj [("grant_types", .obj [("add", .arr [.str "authorization_code", .str "refresh_token"]), ("default", .arr [.str "authorization_code"]), ("essential", .bool true)])]), .obj [("grant_types", .arr [.str "password"])], .obj [("grant_types", .arr [.str "password", .str "authorization_code", .str "refresh_token"])], false⟩,
  ⟨977, .obj [("grant_types", .obj [("default", .arr [.str "authorization_code"])])], .obj [("grant_types", .obj [("add", .arr [.str "authorization_code", .str "refresh_token"])])], some (.obj [("grant_types", .obj [("add", .arr [.str "authorization_code", .str "refresh_token"]), ("default", .arr [.str "authorization_code"])])]), .obj [("grant_types", .arr [.str "password"])], .obj [("grant_types", .arr [.str "password", .str "authorization_code", .str "refresh_token"])], false⟩,
  ⟨978, .obj [("grant_types", .obj [("default", .arr [.str "authorization_code"]), ("essential", .bool true)])], .obj [("grant_types", .obj [("add", .arr [.str "authorization_code", .str "refresh_token"]), ("essential", .bool true)])], some (.obj [("grant_types", .obj [("add", .arr [.str "authorization_code", .str "refresh_token"]), ("default", .arr [.str "authorization_code"]), ("essential", .bool true)])]), .obj [("grant_types", .arr [.str "authorization_code", .str "refresh_token"])], .obj [("grant_types", .arr [.str "authorization_code", .str "refresh_token"])], false⟩,
  ⟨979, .obj [("grant_types", .obj [("default", .arr [.str "authorization_code"]), ("essential", .bool true)])], .obj [("grant_types", .obj [("add", .arr [.str "authorization_code", .str "refresh_token"])])], some (.obj [("grant_types", .obj [("add", .arr [.str "authorization_code", .str "refresh_token"]), ("default", .arr [.str "authorization_code"]), ("essential", .bool true)])]), .obj [("grant_types", .arr [.str "authorization_code", .str "refresh_token"])], .obj [("grant_types", .arr [.str "authorization_code", .str "refresh_token"])], false⟩,
  ⟨980, .obj [("grant_types", .obj [("default", .arr [.str "authorization_code"])])], .obj [("grant_types", .obj [("add", .arr [.str "authorization_code", .str "refresh_token"]), ("essential", .bool true)])], some (.obj [("grant_types", .obj [("add", .arr [.str "authorization_code", .str "refresh_token"]), ("default", .arr [.str "authorization_code"]), ("essential", .bool true)])]), .obj [("grant_types", .arr [.str "authorization_code", .str "refresh_token"])], .obj [("grant_types", .arr [.str "authorization_code", .str "refresh_token"])], false⟩,
  ⟨981, .obj [("grant_types", .obj [("default", .arr [.str "authorization_code"])])], .obj [("grant_types", .obj [("add", .arr [.str "authorization_code", .str "refresh_token"])])], some (.obj [("grant_types", .obj [("add", .arr [.str "authorization_code", .str "refresh_token"]), ("default", .arr [.str "authorization_code"])])]), .obj [("grant_types", .arr [.str "authorization_code", .str "refresh_token"])], .obj [("grant_types", .arr [.str "authorization_code", .str "refresh_token"])], false⟩,
  ⟨982, .obj [("grant_types", .obj [("default", .arr [.str "authorization_code"]), ("essential", .bool true)])], .obj [("grant_types", .obj [("add", .arr [.str "authorization_code", .str "refresh_token"]), ("essential", .bool true)])], some (.obj [("grant_types", .obj [("add", .arr [.str "authorization_code", .str "refresh_token"]), ("default", .arr [.str "authorization_code"]), ("essential", .bool true)])]), .obj [("grant_types", .arr [.str "authorization_code", .str "password"])], .obj [("grant_types", .arr [.str "authorization_code", .str "password", .str "refresh_token"])], false⟩,
  ⟨983, .obj [("grant_types", .obj [("default", .arr [.str "authorization_code"]), ("essential", .bool true)])], .obj [("grant_types", .obj [("add", .arr [.str "authorization_code", .str "refresh_token"])])], some (.obj [("grant_types", .obj [("add", .arr [.str "authorization_code", .str "refresh_token"]), ("default", .arr [.str "authorization_code"]), ("essential", .bool true)])]), .obj [("grant_types", .arr [.str "authorization_code", .str "password"])], .obj [("grant_types", .arr [.str "authorization_code", .str "password", .str "refresh_token"])], false⟩,
  ⟨984, .obj [("grant_types", .obj [("default", .arr [.str "authorization_code"])])], .obj [("grant_types", .obj [("add", .arr [.str "authorization_code", .str "refresh_token"]), ("essential", .bool true)])], some (.obj [("grant_types", .obj [("add", .arr [.str "authorization_code", .str "refresh_token"]), ("default", .arr [.str "authorization_code"]), ("essential", .bool true)])]), .obj [("grant_types", .arr [.str "authorization_code", .str "password"])], .obj [("grant_types", .arr [.str "authorization_code", .str "password", .str "refresh_token"])], false⟩,
  ⟨985, .obj [("grant_types", .obj [("default", .arr [.str "authorization_code"])])], .obj [("grant_types", .obj [("add", .arr [.str "authorization_code", .str "refresh_token"])])], some (.obj [("grant_types", .obj [("add", .arr [.str "authorization_code", .str "refresh_token"]), ("default", .arr [.str "authorization_code"])])]), .obj [("grant_types", .arr [.str "authorization_code", .str "password"])], .obj [("grant_types", .arr [.str "authorization_code", .str "password", .str "refresh_token"])], false⟩,
  ⟨986, .obj [("grant_types", .obj [("default", .arr [.str "authorization_code"]), ("essential", .bool true)])], .obj [("grant_types", .obj [("add", .arr [.str "authorization_code", .str "refresh_token"]), ("essential", .bool true)])], some (.obj [("grant_types", .obj [("add", .arr [.str "authorization_code", .str "refresh_token"]), ("default", .arr [.str "authorization_code"]), ("essential", .bool true)])]), .obj [("grant_types", .arr [])], .obj [("grant_types", .arr [.str "authorization_code", .str "refresh_token"])], false⟩,
  ⟨987, .obj [("grant_types", .obj [("default", .arr [.str "authorization_code"]), ("essential", .bool true)])], .obj [("grant_types", .obj [("add", .arr [.str "authorization_code", .str "refresh_token"])])], some (.obj [("grant_types", .obj [("add", .arr [.str "authorization_code", .str "refresh_token"]), ("default", .arr [.str "authorization_code"]), ("essential", .bool true)])]), .obj [("grant_types", .arr [])], .obj [("grant_types", .arr [.str "authorization_code", .str "refresh_token"])], false⟩,
  ⟨988, .obj [("grant_types", .obj [("default", .arr [.str "authorization_code"])])], .obj [("grant_types", .obj [("add", .arr [.str "authorization_code", .str "refresh_token"]), ("essential", .bool true)])], some (.obj [("grant_types", .obj [("add", .arr [.str "authorization_code", .str "refresh_token"]), ("default", .arr [.str "authorization_code"]), ("essential", .bool true)])]), .obj [("grant_types", .arr [])], .obj [("grant_types", .arr [.str "authorization_code", .str "refresh_token"])], false⟩,
  ⟨989, .obj [("grant_types", .obj [("default", .arr [.str "authorization_code"])])], .obj [("grant_types", .obj [("add", .arr [.str "authorization_code", .str "refresh_token"])])], some (.obj [("grant_types", .obj [("add", .arr [.str "authorization_code", .str "refresh_token"]), ("default", .arr [.str "authorization_code"])])]), .obj [("grant_types", .arr [])], .obj [("grant_types", .arr [.str "authorization_code", .str "refresh_token"])], false⟩,
  ⟨990, .obj [("grant_types", .obj [("default", .arr [.str "authorization_code"]), ("essential", .bool true)])], .obj [("grant_types", .obj [("add", .arr [.str "authorization_code", .str "refresh_token"]), ("essential", .bool true)])], some (.obj [("grant_types", .obj [("add", .arr [.str "authorization_code", .str "refresh_token"]), ("default", .arr [.str "authorization_code"]), ("essential", .bool true)])]), .obj [], .obj [("grant_types", .arr [.str "authorization_code", .str "refresh_token"])], false⟩,
  ⟨991, .obj [("grant_types", .obj [("default", .arr [.str "authorization_code"]), ("essential", .bool true)])], .obj [("grant_types", .obj [("add", .arr [.str "authorization_code", .str "refresh_token"])])], some (.obj [("grant_types", .obj [("add", .arr [.str "authorization_code", .str "refresh_token"]), ("default", .arr [.str "authorization_code"]), ("essential", .bool true)])]), .obj [], .obj [("grant_types", .arr [.str "authorization_code", .str "refresh_token"])], false⟩,
  ⟨992, .obj [("grant_types", .obj [("default", .arr [.str "authorization_code"])])], .obj [("grant_types", .obj [("add", .arr [.str "authorization_code", .str "refresh_token"]), ("essential", .bool true)])], some (.obj [("grant_types", .obj [("add", .arr [.str "authorization_code", .str "refresh_token"]), ("default", .arr [.str "authorization_code"]), ("essential", .bool true)])]), .obj [], .obj [("grant_types", .arr [.str "authorization_code", .str "refresh_token"])], false⟩,
  ⟨993, .obj [("grant_types", .obj [("default", .arr [.str "authorization_code"])])], .obj [("grant_types", .obj [("add", .arr [.str "authorization_code", .str "refresh_token"])])], some (.obj [("grant_types", .obj [("add", .arr [.str "authorization_code", .str "refresh_token"]), ("default", .arr [.str "authorization_code"])])]), .obj [], .obj [("grant_types", .arr [.str "authorization_code", .str "refresh_token"])], false⟩,
  ⟨994, .obj [("id_token_signed_response_alg", .obj [("default", .str "RS256"), ("essential", .bool true)])], .obj [("id_token_signed_response_alg", .obj [("default", .str "RS256"), ("essential", .bool true)])], some (.obj [("id_token_signed_response_alg", .obj [("default", .str "RS256"), ("essential", .bool true)])]), .obj [("id_token_signed_response_alg", .str "RS256")], .obj [("id_token_signed_response_alg", .str "RS256")], false⟩,
  ⟨995, .obj [("id_token_signed_response_alg", .obj [("default", .str "RS256"), ("essential", .bool true)])], .obj [("id_token_signed_response_alg", .obj [("default", .str "RS256")])], some (.obj [("id_token_signed_response_alg", .obj [("default", .str "RS256"), ("essential", .bool true)])]), .obj [("id_token_signed_response_alg", .str "RS256")], .obj [("id_token_signed_response_alg", .str "RS256")], false⟩,
  ⟨996, .obj [("id_token_signed_response_alg", .obj [("default", .str "RS256")])], .obj [("id_token_signed_response_alg", .obj [("default", .str "RS256"), ("essential", .bool true)])], some (.obj [("id_token_signed_response_alg", .obj [("default", .str "RS256"), ("essential", .bool true)])]), .obj [("id_token_signed_response_alg", .str "RS256")], .obj [("id_token_signed_response_alg", .str "RS256")], false⟩,
  ⟨997, .obj [("id_token_signed_response_alg", .obj [("default", .str "RS256")])], .obj [("id_token_signed_response_alg", .obj [("default", .str "RS256")])], some (.obj [("id_token_signed_response_alg", .obj [("default", .str "RS256")])]), .obj [("id_token_signed_response_alg", .str "RS256")], .obj [("id_token_signed_response_alg", .str "RS256")], false⟩,
  ⟨998, .obj [("id_token_signed_response_alg", .obj [("default", .str "RS256"), ("essential", .bool true)])], .obj [("id_token_signed_response_alg", .obj [("default", .str "RS256"), ("essential", .bool true)])], some (.obj [("id_token_signed_response_alg", .obj [("default", .str "RS256"), ("essential", .bool true)])]), .obj [("id_token_signed_response_alg", .str "EdDSA")], .obj [("id_token_signed_response_alg", .str "EdDSA")], false⟩,
  ⟨999, .obj [("id_token_signed_response_alg", .obj [("default", .str "RS256"), ("essential", .bool true)])], .obj [("id_token_signed_response_alg", .obj [("default", .str "RS256")])], some (.obj [("id_token_signed_response_alg", .obj [("default", .str "RS256"), ("essential", .bool true)])]), .obj [("id_token_signed_response_alg", .str "EdDSA")], .obj [("id_token_signed_response_alg", .str "EdDSA")], false⟩,
  ⟨1000, .obj [("id_token_signed_response_alg", .obj [("default", .str "RS256")])], .obj [("id_token_signed_response_alg", .obj [("default", .str "RS256"), ("essential", .bool true)])], some (.obj [("id_token_signed_response_alg", .obj [("default", .str "RS256"), ("essential", .bool true)])]), .obj [("id_token_signed_response_alg", .str "EdDSA")], .obj [("id_token_signed_response_alg", .str "EdDSA")], false⟩,
  ⟨1001, .obj [("id_token_signed_response_alg", .obj [("default", .str "RS256")])], .obj [("id_token_signed_response_alg", .obj [("default", .str "RS256")])], some (.obj [("id_token_signed_response_alg", .obj [("default", .str "RS256")])]), .obj [("id_token_signed_response_alg", .str "EdDSA")], .obj [("id_token_signed_response_alg", .str "EdDSA")], false⟩,
  ⟨1002, .obj [("id_token_signed_response_alg", .obj [("default", .str "RS256"), ("essential", .bool true)])], .obj [("id_token_signed_response_alg", .obj [("default", .str "RS256"), ("essential", .bool true)])], some (.obj [("id_token_signed_response_alg", .obj [("default", .str "RS256"), ("essential", .bool true)])]), .obj [], .obj [("id_token_signed_response_alg", .str "RS256")], false⟩,
  ⟨1003, .obj [("id_token_signed_response_alg", .obj [("default", .str "RS256"), ("essential", .bool true)])], .obj [("id_token_signed_response_alg", .obj [("default", .str "RS256")])], some (.obj [("id_token_signed_response_alg", .obj [("default", .str "RS256"), ("essential", .bool true)])]), .obj [], .obj [("id_token_signed_response_alg", .str "RS256")], false⟩,
  ⟨1004, .obj [("id_token_signed_response_alg", .obj [("default", .str "RS256")])], .obj [("id_token_signed_response_alg", .obj [("default", .str "RS256"), ("essential", .bool true)])], some (.obj [("id_token_signed_response_alg", .obj [("default", .str "RS256"), ("essential", .bool true)])]), .obj [], .obj [("id_token_signed_response_alg", .str "RS256")], false⟩,
  ⟨1005, .obj [("id_token_signed_response_alg", .obj [("default", .str "RS256")])], .obj [("id_token_signed_response_alg", .obj [("default", .str "RS256")])], some (.obj [("id_token_signed_response_alg", .obj [("default", .str "RS256")])]), .obj [], .obj [("id_token_signed_response_alg", .str "RS256")], false⟩,
  ⟨1006, .obj [("grant_types", .obj [("default", .arr []), ("essential", .bool true)])], .obj [("grant_types", .obj [("default", .arr [.str "authorization_code"]), ("essential", .bool true)])], none, .obj [("grant_types", .arr [.str "authorization_code"])], .obj [], true⟩,
  ⟨1007, .obj [("grant_types", .obj [("default", .arr []), ("essential", .bool true)])], .obj [("grant_types", .obj [("default", .arr [.str "authorization_code"])])], none, .obj [("grant_types", .arr [.str "authorization_code"])], .obj [], true⟩,
  ⟨1008, .obj [("grant_types", .obj [("default", .arr [])])], .obj [("grant_types", .obj [("default", .arr [.str "authorization_code"]), ("essential", .bool true)])], none, .obj [("grant_types", .arr [.str "authorization_code"])], .obj [], true⟩,
  ⟨1009, .obj [("grant_types", .obj [("default", .arr [])])], .obj [("grant_types", .obj [("default", .arr [.str "authorization_code"])])], none, .obj [("grant_types", .arr [.str "authorization_code"])], .obj [], true⟩,
  ⟨1010, .obj [("grant_types", .obj [("default", .arr []), ("essential", .bool true)])], .obj [("grant_types", .obj [("default", .arr [.str "authorization_code"]), ("essential", .bool true)])], none, .obj [("grant_types", .arr [.str "password"])], .obj [], true⟩,
  ⟨1011, .obj [("grant_types", .obj [("default", .arr []), ("essential", .bool true)])], .obj [("grant_types", .obj [("default", .arr [.str "authorization_code"])])], none, .obj [("grant_types", .arr [.str "password"])], .obj [], true⟩,
  ⟨1012, .obj [("grant_types", .obj [("default", .arr [])])], .obj [("grant_types", .obj [("default", .arr [.str "authorization_code"]), ("essential", .bool true)])], none, .obj [("grant_types", .arr [.str "password"])], .obj [], true⟩,
  ⟨1013, .obj [("grant_types", .obj [("default", .arr [])])], .obj [("grant_types", .obj [("default", .arr [.str "authorization_code"])])], none, .obj [("grant_types", .arr [.str "password"])], .obj [], true⟩,
  ⟨1014, .obj [("grant_types", .obj [("default", .arr []), ("essential", .bool true)])], .obj [("grant_types", .obj [("default", .arr [.str "authorization_code"]), ("essential", .bool true)])], none, .obj [("grant_types", .arr [.str "authorization_code", .str "refresh_token"])], .obj [], true⟩,
  ⟨1015, .obj [("grant_types", .obj [("default", .arr []), ("essential", .bool true)])], .obj [("grant_types", .obj [("default", .arr [.str "authorization_code"])])], none, .obj [("grant_types", .arr [.str "authorization_code", .str "refresh_token"])], .obj [], true⟩,
  ⟨1016, .obj [("grant_types", .obj [("default", .arr [])])], .obj [("grant_types", .obj [("default", .arr [.str "authorization_code"]), ("essential", .bool true)])], none, .obj [("grant_types", .arr [.str "authorization_code", .str "refresh_token"])], .obj [], true⟩,
  ⟨1017, .obj [("grant_types", .obj [("default", .arr [])])], .obj [("grant_types", .obj [("default", .arr [.str "authorization_code"])])], none, .obj [("grant_types", .arr [.str "authorization_code", .str "refresh_token"])], .obj [], true⟩,
  ⟨1018, .obj [("grant_types", .obj [("default", .arr []), ("essential", .bool true)])], .obj [("grant_types", .obj [("default", .arr [.str "authorization_code"]), ("essential", .bool true)])], none, .obj [("grant_types", .arr [.str "authorization_code", .str "password"])], .obj [], true⟩,
  ⟨1019, .obj [("grant_types", .obj [("default", .arr []), ("essential", .bool true)])], .obj [("grant_types", .obj [("default", .arr [.str "authorization_code"])])], none, .obj [("grant_types", .arr [.str "authorization_code", .str "password"])], .obj [], true⟩,
  ⟨1020, .obj [("grant_types", .obj [("default", .arr [])])], .obj [("grant_types", .obj [("default", .arr [.str "authorization_code"]), ("essential", .bool true)])], none, .obj [("grant_types", .arr [.str "authorization_code", .str "password"])], .obj [], true⟩,
  ⟨1021, .obj [("grant_types", .obj [("default", .arr [])])], .obj [("grant_types", .obj [("default", .arr [.str "authorization_code"])])], none, .obj [("grant_types", .arr [.str "authorization_code", .str "password"])], .obj [], true⟩,
  ⟨1022, .obj [("grant_types", .obj [("default", .arr []), ("essential", .bool true)])], .obj [("grant_types", .obj [("default", .arr [.str "authorization_code"]), ("essential", .bool true)])], none, .obj [("grant_types", .arr [])], .obj [], true⟩,
  ⟨1023, .obj [("grant_types", .obj [("default", .arr []), ("essential", .bool true)])], .obj [("grant_types", .obj [("default", .arr [.str "authorization_code"])])], none, .obj [("grant_types", .arr [])], .obj [], true⟩,
  ⟨1024, .obj [("grant_types", .obj [("default", .arr [])])], .obj [("grant_types", .obj [("default", .arr [.str "authorization_code"]), ("essential", .bool true)])], none, .obj [("grant_types", .arr [])], .obj [], true⟩,
  ⟨1025, .obj [("grant_types", .obj [("default", .arr [])])], .obj [("grant_types", .obj [("default", .arr [.str "authorization_code"])])], none, .obj [("grant_types", .arr [])], .obj [], true⟩,
  ⟨1026, .obj [("grant_types", .obj [("default", .arr []), ("essential", .bool true)])], .obj [("grant_types", .obj [("default", .arr [.str "authorization_code"]), ("essential", .bool true)])], none, .obj [], .obj [], true⟩,
  ⟨1027, .obj [("grant_types", .obj [("default", .arr []), ("essential", .bool true)])], .obj [("grant_types", .obj [("default", .arr [.str "authorization_code"])])], none, .obj [], .obj [], true⟩,
  ⟨1028, .obj [("grant_types", .obj [("default", .arr [])])], .obj [("grant_types", .obj [("default", .arr [.str "authorization_code"]), ("essential", .bool true)])], none, .obj [], .obj [], true⟩,
  ⟨1029, .obj [("grant_types", .obj [("default", .arr [])])], .obj [("grant_types", .obj [("default", .arr [.str "authorization_code"])])], none, .obj [], .obj [], true⟩,
  ⟨1030, .obj [("grant_types", .obj [("default", .arr []), ("essential", .bool true)])], .obj [("grant_types", .obj [("default", .arr [.str "authorization_code", .str "refresh_token"]), ("essential", .bool true)])], none, .obj [("grant_types", .arr [.str "authorization_code"])], .obj [], true⟩,
  ⟨1031, .obj [("grant_types", .obj [("default", .arr []), ("essential", .bool true)])], .obj [("grant_types", .obj [("default", .arr [.str "authorization_code", .str "refresh_token"])])], none, .obj [("grant_types", .arr [.str "authorization_code"])], .obj [], true⟩,
  ⟨1032, .obj [("grant_types", .obj [("default", .arr [])])], .obj [("grant_types", .obj [("default", .arr [.str "authorization_code", .str "refresh_token"]), ("essential", .bool true)])], none, .obj [("grant_types", .arr [.str "authorization_code"])], .obj [], true⟩,
  ⟨1033, .obj [("grant_types", .obj [("default", .arr [])])], .obj [("grant_types", .obj [("default", .arr [.str "authorization_code", .str "refresh_token"])])], none, .obj [("grant_types", .arr [.str "authorization_code"])], .obj [], true⟩,
  ⟨1034, .obj [("grant_types", .obj [("default", .arr []), ("essential", .bool true)])], .obj [("grant_types", .obj [("default", .arr [.str "authorization_code", .str "refresh_token"]), ("essential", .bool true)])], none, .obj [("grant_types", .arr [.str "password"])], .obj [], true⟩,
  ⟨1035, .obj [("grant_types", .obj [("default", .arr []), ("essential", .bool true)])], .obj [("grant_types", .obj [("default", .arr [.str "authorization_code", .str "refresh_token"])])], none, .obj [("grant_types", .arr [.str "password"])], .obj [], true⟩,
  ⟨1036, .obj [("grant_types", .obj [("default", .arr [])])], .obj [("grant_types", .obj [("default", .arr [.str "authorization_code", .str "refresh_token"]), ("essential", .bool true)])], none, .obj [("grant_types", .arr [.str "password"])], .obj [], true⟩,
  ⟨1037, .obj [("grant_types", .obj [("default", .arr [])])], .obj [("grant_types", .obj [("default", .arr [.str "authorization_code", .str "refresh_token"])])], none, .obj [("grant_types", .arr [.str "password"])], .obj [], true⟩,
  ⟨1038, .obj [("grant_types", .obj [("default", .arr []), ("essential", .bool true)])], .obj [("grant_types", .obj [("default", .arr [.str "authorization_code", .str "refresh_token"]), ("essential", .bool true)])], none, .obj [("grant_types", .arr [.str "authorization_code", .str "refresh_token"])], .obj [], true⟩,
  ⟨1039, .obj [("grant_types", .obj [("default", .arr []), ("essential", .bool true)])], .obj [("grant_types", .obj [("default", .arr [.str "authorization_code", .str "refresh_token"])])], none, .obj [("grant_types", .arr [.str "authorization_code", .str "refresh_token"])], .obj [], true⟩,
  ⟨1040, .obj [("grant_types", .obj [("default", .arr [])])], .obj [("grant_types", .obj [("default", .arr [.str "authorization_code", .str "refresh_token"]), ("essential", .bool true)])], none, .obj [("grant_types", .arr [.str "authorization_code", .str "refresh_token"])], .obj [], true⟩,
  ⟨1041, .obj [("grant_types", .obj [("default", .arr [])])], .obj [("grant_types", .obj [("default", .arr [.str "authorization_code", .str "refresh_token"])])], none, .obj [("grant_types", .arr [.str "authorization_code", .str "refresh_token"])], .obj [], true⟩,
  ⟨1042, .obj [("grant_types", .obj [("default", .arr []), ("essential", .bool true)])], .obj [("grant_types", .obj [("default", .arr [.str "authorization_code", .str "refresh_token"]), ("essential", .bool true)])], none, .obj [("grant_types", .arr [.str "authorization_code", .str "password"])], .obj [], true⟩,
  ⟨1043, .obj [("grant_types", .obj [("default", .arr []), ("essential", .bool true)])], .obj [("grant_types", .obj [("default", .arr [.str "authorization_code", .str "refresh_token"])])], none, .obj [("grant_types", .arr [.str "authorization_code", .str "password"])], .obj [], true⟩,
  ⟨1044, .obj [("grant_types", .obj [("default", .arr [])])], .obj [("grant_types", .obj [("default", .arr [.str "authorization_code", .str "refresh_token"]), ("essential", .bool true)])], none, .obj [("grant_types", .arr [.str "authorization_code", .str "password"])], .obj [], true⟩,
  ⟨1045, .obj [("grant_types", .obj [("default", .arr [])])], .obj [("grant_types", .obj [("default", .arr [.str "authorization_code", .str "refresh_token"])])], none, .obj [("grant_types", .arr [.str "authorization_code", .str "password"])], .obj [], true⟩,
  ⟨1046, .obj [("grant_types", .obj [("default", .arr []), ("essential", .bool true)])], .obj [("grant_types", .obj [("default", .arr [.str "authorization_code", .str "refresh_token"]), ("essential", .bool true)])], none, .obj [("grant_types", .arr [])], .obj [], true⟩,
  ⟨1047, .obj [("grant_types", .obj [("default", .arr []), ("essential", .bool true)])], .obj [("grant_types", .obj [("default", .arr [.str "authorization_code", .str "refresh_token"])])], none, .obj [("grant_types", .arr [])], .obj [], true⟩,
  ⟨1048, .obj [("grant_types", .obj [("default", .arr [])])], .obj [("grant_types", .obj [("default", .arr [.str "authorization_code", .str "refresh_token"]), ("essential", .bool true)])], none, .obj [("grant_types", .arr [])], .obj [], true⟩,
  ⟨1049, .obj [("grant_types", .obj [("default", .arr [])])], .obj [("grant_types", .obj [("default", .arr [.str "authorization_code", .str "refresh_token"])])], none, .obj [("grant_types", .arr [])], .obj [], true⟩,
  ⟨1050, .obj [("grant_types", .obj [("default", .arr []), ("essential", .bool true)])], .obj [("grant_types", .obj [("default", .arr [.str "authorization_code", .str "refresh_token"]), ("essential", .bool true)])], none, .obj [], .obj [], true⟩,
  ⟨1051, .obj [("grant_types", .obj [("default", .arr []), ("essential", .bool true)])], .obj [("grant_types", .obj [("default", .arr [.str "authorization_code", .str "refresh_token"])])], none, .obj [], .obj [], true⟩,
  ⟨1052, .obj [("grant_types", .obj [("default", .arr [])])], .obj [("grant_types", .obj [("default", .arr [.str "authorization_code", .str "refresh_token"]), ("essential", .bool true)])], none, .obj [], .obj [], true⟩,
  ⟨1053, .obj [("grant_types", .obj [("default", .arr [])])], .obj [("grant_types", .obj [("default", .arr [.str "authorization_code", .str "refresh_token"])])], none, .obj [], .obj [], true⟩,
  ⟨1054, .obj [("grant_types", .obj [("default", .arr [.str "authorization_code"]), ("essential", .bool true)])], .obj [("grant_types", .obj [("default", .arr [.str "authorization_code", .str "refresh_token"]), ("essential", .bool true)])], none, .obj [("grant_types", .arr [.str "authorization_code"])], .obj [], true⟩,
  ⟨1055, .obj [("grant_types", .obj [("default", .arr [.str "authorization_code"]), ("essential", .bool true)])], .obj [("grant_types", .obj [("default", .arr [.str "authorization_code", .str "refresh_token"])])], none, .obj [("grant_types", .arr [.str "authorization_code"])], .obj [], true⟩,
  ⟨1056, .obj [("grant_types", .obj [("default", .arr [.str "authorization_code"])])], .obj [("grant_types", .obj [("default", .arr [.str "authorization_code", .str "refresh_token"]), ("essential", .bool true)])], none, .obj [("grant_types", .arr [.str "authorization_code"])], .obj [], true⟩,
  ⟨1057, .obj [("grant_types", .obj [("default", .arr [.str "authorization_code"])])], .obj [("grant_types", .obj [("default", .arr [.str "authorization_code", .str "refresh_token"])])], none, .obj [("grant_types", .arr [.str "authorization_code"])], .obj [], true⟩,
  ⟨1058, .obj [("grant_types", .obj [("default", .arr [.str "authorization_code"]), ("essential", .bool true)])], .obj [("grant_types", .obj [("default", .arr [.str "authorization_code", .str "refresh_token"]), ("essential", .bool true)])], none, .obj [("grant_types", .arr [.str "password"])], .obj [], true⟩,
  ⟨1059, .obj [("grant_types", .obj [("default", .arr [.str "authorization_code"]), ("essential", .bool true)])], .obj [("grant_types", .obj [("default", .arr [.str "authorization_code", .str "refresh_token"])])], none, .obj [("grant_types", .arr [.str "password"])], .obj [], true⟩,
  ⟨1060, .obj [("grant_types", .obj [("default", .arr [.str "authorization_code"])])], .obj [("grant_types", .obj [("default", .arr [.str "authorization_code", .str "refresh_token"]), ("essential", .bool true)])], none, .obj [("grant_types", .arr [.str "password"])], .obj [], true⟩,
  ⟨1061, .obj [("grant_types", .obj [("default", .arr [.str "authorization_code"])])], .obj [("grant_types", .obj [("default", .arr [.str "authorization_code", .str "refresh_token"])])], none, .obj [("grant_types", .arr [.str "password"])], .obj [], true⟩,
  ⟨1062, .obj [("grant_types", .obj [("default", .arr [.str "authorization_code"]), ("essential", .bool true)])], .obj [("grant_types", .obj [("default", .arr [.str "authorization_code", .str "refresh_token"]), ("essential", .bool true)])], none, .obj [("grant_types", .arr [.str "authorization_code", .str "refresh_token"])], .obj [], true⟩,
  ⟨1063, .obj [("grant_types", .obj [("default", .arr [.str "authorization_code"]), ("essential", .bool true)])], .obj [("grant_types", .obj [("default", .arr [.str "authorization_code", .str "refresh_token"])])], none, .obj [("grant_types", .arr [.str "authorization_code", .str "refresh_token"])], .obj [], true⟩,
  ⟨1064, .obj [("grant_types", .obj [("default", .arr [.str "authorization_code"])])], .obj [("grant_types", .obj [("default", .arr [.str "authorization_code", .str "refresh_token"]), ("essential", .bool true)])], none, .obj [("grant_types", .arr [.str "authorization_code", .str "refresh_token"])], .obj [], true⟩,
  ⟨1065, .obj [("grant_types", .obj [("default", .arr [.str "authorization_code"])])], .obj [("grant_types", .obj [("default", .arr [.str "authorization_code", .str "refresh_token"])])], none, .obj [("grant_types", .arr [.str "authorization_code", .str "refresh_token"])], .obj [], true⟩,
  ⟨1066, .obj [("grant_types", .obj [("default", .arr [.str "authorization_code"]), ("essential", .bool true)])], .obj [("grant_types", .obj [("default", .arr [.str "authorization_code", .str "refresh_token"]), ("essential", .bool true)])], none, .obj [("grant_types", .arr [.str "authorization_code", .str "password"])], .obj [], true⟩,
  ⟨1067, .obj [("grant_types", .obj [("default", .arr [.str "authorization_code"]), ("essential", .bool true)])], .obj [("grant_types", .obj [("default", .arr [.str "authorization_code", .str "refresh_token"])])], none, .obj [("grant_types", .arr [.str "authorization_code", .str "password"])], .obj [], true⟩,
  ⟨1068, .obj [("grant_types", .obj [("default", .arr [.str "authorization_code"])])], .obj [("grant_types", .obj [("default", .arr [.str "authorization_code", .str "refresh_token"]), ("essential", .bool true)])], none, .obj [("grant_types", .arr [.str "authorization_code", .str "password"])], .obj [], true⟩,
  ⟨1069, .obj [("grant_types", .obj [("default", .arr [.str "authorization_code"])])], .obj [("grant_types", .obj [("default", .arr [.str "authorization_code", .str "refresh_token"])])], none, .obj [("grant_types", .arr [.str "authorization_code", .str "password"])], .obj [], true⟩,
  ⟨1070, .obj [("grant_types", .obj [("default", .arr [.str "authorization_code"]), ("essential", .bool true)])], .obj [("grant_types", .obj [("default", .arr [.str "authorization_code", .str "refresh_token"]), ("essential", .bool true)])], none, .obj [("grant_types", .arr [])], .obj [], true⟩,
  ⟨1071, .obj [("grant_types", .obj [("default", .arr [.str "authorization_code"]), ("essential", .bool true)])], .obj [("grant_types", .obj [("default", .arr [.str "authorization_code", .str "refresh_token"])])], none, .obj [("grant_types", .arr [])], .obj [], true⟩,
  ⟨1072, .obj [("grant_types", .obj [("default", .arr [.str "authorization_code"])])], .obj [("grant_types", .obj [("default", .arr [.str "authorization_code", .str "refresh_token"]), ("essential", .bool true)])], none, .obj [("grant_types", .arr [])], .obj [], true⟩,
  ⟨1073, .obj [("grant_types", .obj [("default", .arr [.str "authorization_code"])])], .obj [("grant_types", .obj [("default", .arr [.str "authorization_code", .str "refresh_token"])])], none, .obj [("grant_types", .arr [])], .obj [], true⟩,
  ⟨1074, .obj [("grant_types", .obj [("default", .arr [.str "authorization_code"]), ("essential", .bool true)])], .obj [("grant_types", .obj [("default", .arr [.str "authorization_code", .str "refresh_token"]), ("essential", .bool true)])], none, .obj [], .obj [], true⟩,
  ⟨1075, .obj [("grant_types", .obj [("default", .arr [.str "authorization_code"]), ("essential", .bool true)])], .obj [("grant_types", .obj [("default", .arr [.str "authorization_code", .str "refresh_token"])])], none, .obj [], .obj [], true⟩,
  ⟨1076, .obj [("grant_types", .obj [("default", .arr [.str "authorization_code"])])], .obj [("grant_types", .obj [("default", .arr [.str "authorization_code", .str "refresh_token"]), ("essential", .bool true)])], none, .obj [], .obj [], true⟩,
  ⟨1077, .obj [("grant_types", .obj [("default", .arr [.str "authorization_code"])])], .obj [("grant_types", .obj [("default", .arr [.str "authorization_code", .str "refresh_token"])])], none, .obj [], .obj [], true⟩,
  ⟨1078, .obj [("require_auth_time", .obj [("default", .bool true)])], .obj [("require_auth_time", .obj [("default", .bool true)])], some (.obj [("require_auth_time", .obj [("default", .bool true)])]), .obj [("require_auth_time", .bool true)], .obj [("require_auth_time", .bool true)], false⟩,
  ⟨1079, .obj [("require_auth_time", .obj [("default", .bool true)])], .obj [("require_auth_time", .obj [("default", .bool false)])], none, .obj [("require_auth_time", .bool true)], .obj [], true⟩,
  ⟨1080, .obj [("require_auth_time", .obj [("default", .bool false)])], .obj [("require_auth_time", .obj [("default", .bool true)])], none, .obj [("require_auth_time", .bool true)], .obj [], true⟩,
  ⟨1081, .obj [("require_auth_time", .obj [("default", .bool false)])], .obj [("require_auth_time", .obj [("default", .bool false)])], some (.obj [("require_auth_time", .obj [("default", .bool false)])]), .obj [("require_auth_time", .bool true)], .obj [("require_auth_time", .bool true)], false⟩,
  ⟨1082, .obj [("require_auth_time", .obj [("default", .bool true)])], .obj [("require_auth_time", .obj [("default", .bool true)])], some (.obj [("require_auth_time", .obj [("default", .bool true)])]), .obj [("require_auth_time", .bool false)], .obj [("require_auth_time", .bool false)], false⟩,
  ⟨1083, .obj [("require_auth_time", .obj [("default", .bool true)])], .obj [("require_auth_time", .obj [("default", .bool false)])], none, .obj [("require_auth_time", .bool false)], .obj [], true⟩,
  ⟨1084, .obj [("require_auth_time", .obj [("default", .bool false)])], .obj [("require_auth_time", .obj [("default", .bool true)])], none, .obj [("require_auth_time", .bool false)], .obj [], true⟩,
  ⟨1085, .obj [("require_auth_time", .obj [("default", .bool false)])], .obj [("require_auth_time", .obj [("default", .bool false)])], some (.obj [("require_auth_time", .obj [("default", .bool false)])]), .obj [("require_auth_time", .bool false)], .obj [("require_auth_time", .bool false)], false⟩,
  ⟨1086, .obj [("require_auth_time", .obj [("default", .bool true)])], .obj [("require_auth_time", .obj [("default", .bool true)])], some (.obj [("require_auth_time", .obj [("default", .bool true)])]), .obj [("require_auth_time", .bool true)], .obj [("require_auth_time", .bool true)], false⟩,
  ⟨1087, .obj [("require_auth_time", .obj [("default", .bool true)])], .obj [("require_auth_time", .obj [("default", .bool false)])], none, .obj [("require_auth_time", .bool true)], .obj [], true⟩,
  ⟨1088, .obj [("require_auth_time", .obj [("default", .bool false)])], .obj [("require_auth_time", .obj [("default", .bool true)])], none, .obj [("require_auth_time", .bool true)], .obj [], true⟩,
  ⟨1089, .obj [("require_auth_time", .obj [("default", .bool false)])], .obj [("require_auth_time", .obj [("default", .bool false)])], some (.obj [("require_auth_time", .obj [("default", .bool false)])]), .obj [("require_auth_time", .bool true)], .obj [("require_auth_time", .bool true)], false⟩,
  ⟨1090, .obj [("require_auth_time", .obj [("default", .bool true)])], .obj [("require_auth_time", .obj [("default", .bool true)])], some (.obj [("require_auth_time", .obj [("default", .bool true)])]), .obj [("require_auth_time", .bool false)], .obj [("require_auth_time", .bool false)], false⟩,
  ⟨1091, .obj [("require_auth_time", .obj [("default", .bool true)])], .obj [("require_auth_time", .obj [("default", .bool false)])], none, .obj [("require_auth_time", .bool false)], .obj [], true⟩,
  ⟨1092, .obj [("require_auth_time", .obj [("default", .bool false)])], .obj [("require_auth_time", .obj [("default", .bool true)])], none, .obj [("require_auth_time", .bool false)], .obj [], true⟩,
  ⟨1093, .obj [("require_auth_time", .obj [("default", .bool false)])], .obj [("require_auth_time", .obj [("default", .bool false)])], some (.obj [("require_auth_time", .obj [("default", .bool false)])]), .obj [("require_auth_time", .bool false)], .obj [("require_auth_time", .bool false)], false⟩,
  ⟨1094, .obj [("require_auth_time", .obj [("default", .bool true)])], .obj [("require_auth_time", .obj [("default", .bool true)])], some (.obj [("require_auth_time", .obj [("default", .bool true)])]), .obj [("require_auth_time", .bool true)], .obj [("require_auth_time", .bool true)], false⟩,
  ⟨1095, .obj [("require_auth_time", .obj [("default", .bool true)])], .obj [("require_auth_time", .obj [("default", .bool false)])], none, .obj [("require_auth_time", .bool true)], .obj [], true⟩,
  ⟨1096, .obj [("require_auth_time", .obj [("default", .bool false)])], .obj [("require_auth_time", .obj [("default", .bool true)])], none, .obj [("require_auth_time", .bool true)], .obj [], true⟩,
  ⟨1097, .obj [("require_auth_time", .obj [("default", .bool false)])], .obj [("require_auth_time", .obj [("default", .bool false)])], some (.obj [("require_auth_time", .obj [("default", .bool false)])]), .obj [("require_auth_time", .bool true)], .obj [("require_auth_time", .bool true)], false⟩,
  ⟨1098, .obj [("require_auth_time", .obj [("default", .bool true)])], .obj [("require_auth_time", .obj [("default", .bool true)])], some (.obj [("require_auth_time", .obj [("default", .bool true)])]), .obj [("require_auth_time", .bool false)], .obj [("require_auth_time", .bool false)], false⟩,
  ⟨1099, .obj [("require_auth_time", .obj [("default", .bool true)])], .obj [("require_auth_time", .obj [("default", .bool false)])], none, .obj [("require_auth_time", .bool false)], .obj [], true⟩,
  ⟨1100, .obj [("require_auth_time", .obj [("default", .bool false)])], .obj [("require_auth_time", .obj [("default", .bool true)])], none, .obj [("require_auth_time", .bool false)], .obj [], true⟩,
  ⟨1101, .obj [("require_auth_time", .obj [("default", .bool false)])], .obj [("require_auth_time", .obj [("default", .bool false)])], some (.obj [("require_auth_time", .obj [("default", .bool false)])]), .obj [("require_auth_time", .bool false)], .obj [("require_auth_time", .bool false)], false⟩,
  ⟨1102, .obj [("id_token_signed_response_alg", .obj [("default", .str "RS256"), ("essential", .bool true)])], .obj [("id_token_signed_response_alg", .obj [("one_of", .arr [.str "RS256", .str "ES256"]), ("essential", .bool true)])], some (.obj [("id_token_signed_response_alg", .obj [("default", .str "RS256"), ("one_of", .arr [.str "RS256", .str "ES256"]), ("essential", .bool true)])]), .obj [("id_token_signed_response_alg", .str "RS256")], .obj [("id_token_signed_response_alg", .str "RS256")], false⟩,
  ⟨1103, .obj [("id_token_signed_response_alg", .obj [("default", .str "RS256"), ("essential", .bool true)])], .obj [("id_token_signed_response_alg", .obj [("one_of", .arr [.str "RS256", .str "ES256"])])], some (.obj [("id_token_signed_response_alg", .obj [("default", .str "RS256"), ("one_of", .arr [.str "RS256", .str "ES256"]), ("essential", .bool true)])]), .obj [("id_token_signed_response_alg", .str "RS256")], .obj [("id_token_signed_response_alg", .str "RS256")], false⟩,
  ⟨1104, .obj [("id_token_signed_response_alg", .obj [("default", .str "RS256")])], .obj [("id_token_signed_response_alg", .obj [("one_of", .arr [.str "RS256", .str "ES256"]), ("essential", .bool true)])], some (.obj [("id_token_signed_response_alg", .obj [("default", .str "RS256"), ("one_of", .arr [.str "RS256", .str "ES256"]), ("essential", .bool true)])]), .obj [("id_token_signed_response_alg", .str "RS256")], .obj [("id_token_signed_response_alg", .str "RS256")], false⟩,
  ⟨1105, .obj [("id_token_signed_response_alg", .obj [("default", .str "RS256")])], .obj [("id_token_signed_response_alg", .obj [("one_of", .arr [.str "RS256", .str "ES256"])])], some (.obj [("id_token_signed_response_alg", .obj [("default", .str "RS256"), ("one_of", .arr [.str "RS256", .str "ES256"])])]), .obj [("id_token_signed_response_alg", .str "RS256")], .obj [("id_token_signed_response_alg", .str "RS256")], false⟩,
  ⟨1106, .obj [("id_token_signed_response_alg", .obj [("default", .str "RS256"), ("essential", .bool true)])], .obj [("id_token_signed_response_alg", .obj [("one_of", .arr [.str "RS256", .str "ES256"]), ("essential", .bool true)])], some (.obj [("id_token_signed_response_alg", .obj [("default", .str "RS256"), ("one_of", .arr [.str "RS256", .str "ES256"]), ("essential", .bool true)])]), .obj [("id_token_signed_response_alg", .str "EdDSA")], .obj [], true⟩,
  ⟨1107, .obj [("id_token_signed_response_alg", .obj [("default", .str "RS256"), ("essential", .bool true)])], .obj [("id_token_signed_response_alg", .obj [("one_of", .arr [.str "RS256", .str "ES256"])])], some (.obj [("id_token_signed_response_alg", .obj [("default", .str "RS256"), ("one_of", .arr [.str "RS256", .str "ES256"]), ("essential", .bool true)])]), .obj [("id_token_signed_response_alg", .str "EdDSA")], .obj [], true⟩,
  ⟨1108, .obj [("id_token_signed_response_alg", .obj [("default", .str "RS256")])], .obj [("id_token_signed_response_alg", .obj [("one_of", .arr [.str "RS256", .str "ES256"]), ("essential", .bool true)])], some (.obj [("id_token_signed_response_alg", .obj [("default", .str "RS256"), ("one_of", .arr [.str "RS256", .str "ES256"]), ("essential", .bool true)])]), .obj [("id_token_signed_response_alg", .str "EdDSA")], .obj [], true⟩,
  ⟨1109, .obj [("id_token_signed_response_alg", .obj [("default", .str "RS256")])], .obj [("id_token_signed_response_alg", .obj [("one_of", .arr [.str "RS256", .str "ES256"])])], some (.obj [("id_token_signed_response_alg", .obj [("default", .str "RS256"), ("one_of", .arr [.str "RS256", .str "ES256"])])]), .obj [("id_token_signed_response_alg", .str "EdDSA")], .obj [], true⟩,
  ⟨1110, .obj [("id_token_signed_response_alg", .obj [("default", .str "RS256"), ("essential", .bool true)])], .obj [("id_token_signed_response_alg", .obj [("one_of", .arr [.str "RS256", .str "ES256"]), ("essential", .bool true)])], some (.obj [("id_token_signed_response_alg", .obj [("default", .str "RS256"), ("one_of", .arr [.str "RS256", .str "ES256"]), ("essential", .bool true)])]), .obj [], .obj [("id_token_signed_response_alg", .str "RS256")], false⟩,
  ⟨1111, .obj [("id_token_signed_response_alg", .obj [("default", .str "RS256"), ("essential", .bool true)])], .obj [("id_token_signed_response_alg", .obj [("one_of", .arr [.str "RS256", .str "ES256"])])], some (.obj [("id_token_signed_response_alg", .obj [("default", .str "RS256"), ("one_of", .arr [.str "RS256", .str "ES256"]), ("essential", .bool true)])]), .obj [], .obj [("id_token_signed_response_alg", .str "RS256")], false⟩,
  ⟨1112, .obj [("id_token_signed_response_alg", .obj [("default", .str "RS256")])], .obj [("id_token_signed_response_alg", .obj [("one_of", .arr [.str "RS256", .str "ES256"]), ("essential", .bool true)])], some (.obj [("id_token_signed_response_alg", .obj [("default", .str "RS256"), ("one_of", .arr [.str "RS256", .str "ES256"]), ("essential", .bool true)])]), .obj [], .obj [("id_token_signed_response_alg", .str "RS256")], false⟩,
  ⟨1113, .obj [("id_token_signed_response_alg", .obj [("default", .str "RS256")])], .obj [("id_token_signed_response_alg", .obj [("one_of", .arr [.str "RS256", .str "ES256"])])], some (.obj [("id_token_signed_response_alg", .obj [("default", .str "RS256"), ("one_of", .arr [.str "RS256", .str "ES256"])])]), .obj [], .obj [("id_token_signed_response_alg", .str "RS256")], false⟩,
  ⟨1114, .obj [("grant_types", .obj [("default", .arr []), ("essential", .bool true)])], .obj [("grant_types", .obj [("subset_of", .arr [.str "authorization_code"]), ("essential", .bool true)])], some (.obj [("grant_types", .obj [("default", .arr []), ("subset_of", .arr [.str "authorization_code"]), ("essential", .bool true)])]), .obj [("grant_types", .arr [.str "authorization_code"])], .obj [("grant_types", .arr [.str "authorization_code"])], false⟩,
  ⟨1115, .obj [("grant_types", .obj [("default", .arr []), ("essential", .bool true)])], .obj [("grant_types", .obj [("subset_of", .arr [.str "authorization_code"])])], some (.obj [("grant_types", .obj [("default", .arr []), ("subset_of", .arr [.str "authorization_code"]), ("essential", .bool true)])]), .obj [("grant_types", .arr [.str "authorization_code"])], .obj [("grant_types", .arr [.str "authorization_code"])], false⟩,
  ⟨1116, .obj [("grant_types", .obj [("default", .arr [])])], .obj [("grant_types", .obj [("subset_of", .arr [.str "authorization_code"]), ("essential", .bool true)])], some (.obj [("grant_types", .obj [("default", .arr []), ("subset_of", .arr [.str "authorization_code"]), ("essential", .bool true)])]), .obj [("grant_types", .arr [.str "authorization_code"])], .obj [("grant_types", .arr [.str "authorization_code"])], false⟩,
  ⟨1117, .obj [("grant_types", .obj [("default", .arr [])])], .obj [("grant_types", .obj [("subset_of", .arr [.str "authorization_code"])])], some (.obj [("grant_types", .obj [("default", .arr []), ("subset_of", .arr [.str "authorization_code"])])]), .obj [("grant_types", .arr [.str "authorization_code"])], .obj [("grant_types", .arr [.str "authorization_code"])], false⟩,
  ⟨1118, .obj [("grant_types", .obj [("default", .arr []), ("essential", .bool true)])], .obj [("grant_types", .obj [("subset_of", .arr [.str "authorization_code"]), ("essential", .bool true)])], some (.obj [("grant_types", .obj [("default", .arr []), ("subset_of", .arr [.str "authorization_code"]), ("essential", .bool true)])]), .obj [("grant_types", .arr [.str "password"])], .obj [("grant_types", .arr [])], false⟩,
  ⟨1119, .obj [("grant_types", .obj [("default", .arr []), ("essential", .bool true)])], .obj [("grant_types", .obj [("subset_of", .arr [.str "authorization_code"])])], some (.obj [("grant_types", .obj [("default", .arr []), ("subset_of", .arr [.str "authorization_code"]), ("essential", .bool true)])]), .obj [("grant_types", .arr [.str "password"])], .obj [("grant_types", .arr [])], false⟩,
  ⟨1120, .obj [("grant_types", .obj [("default", .arr [])])], .obj [("grant_types", .obj [("subset_of", .arr [.str "authorization_code"]), ("essential", .bool true)])], some (.obj [("grant_types", .obj [("default", .arr []), ("subset_of", .arr [.str "authorization_code"]), ("essential", .bool true)])]), .obj [("grant_types", .arr [.str "password"])], .obj [("grant_types", .arr [])], false⟩,
  ⟨1121, .obj [("grant_types", .obj [("default", .arr [])])], .obj [("grant_types", .obj [("subset_of", .arr [.str "authorization_code"])])], some (.obj [("grant_types", .obj [("default", .arr []), ("subset_of", .arr [.str "authorization_code"])])]), .obj [("grant_types", .arr [.str "password"])], .obj [("grant_types", .arr [])], false⟩,
  ⟨1122, .obj [("grant_types", .obj [("default", .arr []), ("essential", .bool true)])], .obj [("grant_types", .obj [("subset_of", .arr [.str "authorization_code"]), ("essential", .bool true)])], some (.obj [("grant_types", .obj [("default", .arr []), ("subset_of", .arr [.str "authorization_code"]), ("essential", .bool true)])]), .obj [("grant_types", .arr [.str "authorization_code", .str "refresh_token"])], .obj [("grant_types", .arr [.str "authorization_code"])], false⟩,
  ⟨1123, .obj [("grant_types", .obj [("default", .arr []), ("essential", .bool true)])], .obj [("grant_types", .obj [("subset_of", .arr [.str "authorization_code"])])], some (.obj [("grant_types", .obj [("default", .arr []), ("subset_of", .arr [.str "authorization_code"]), ("essential", .bool true)])]), .obj [("grant_types", .arr [.str "authorization_code", .str "refresh_token"])], .obj [("grant_types", .arr [.str "authorization_code"])], false⟩,
  ⟨1124, .obj [("grant_types", .obj [("default", .arr [])])], .obj [("grant_types", .obj [("subset_of", .arr [.str "authorization_code"]), ("essential", .bool true)])], some (.obj [("grant_types", .obj [("default", .arr []), ("subset_of", .arr [.str "authorization_code"]), ("essential", .bool true)])]), .obj [("grant_types", .arr [.str "authorization_code", .str "refresh_token"])], .obj [("grant_types", .arr [.str "authorization_code"])], false⟩,
  ⟨1125, .obj [("grant_types", .obj [("default", .arr [])])], .obj [("grant_types", .obj [("subset_of", .arr [.str "authorization_code"])])], some (.obj [("grant_types", .obj [("default", .arr []), ("subset_of", .arr [.str "authorization_code"])])]), .obj [("grant_types", .arr [.str "authorization_code", .str "refresh_token"])], .obj [("grant_types", .arr [.str "authorization_code"])], false⟩,
  ⟨1126, .obj [("grant_types", .obj [("default", .arr []), ("essential", .bool true)])], .obj [("grant_types", .obj [("subset_of", .arr [.str "authorization_code"]), ("essential", .bool true)])], some (.obj [("grant_types", .obj [("default", .arr []), ("subset_of", .arr [.str "authorization_code"]), ("essential", .bool true)])]), .obj [("grant_types", .arr [.str "authorization_code", .str "password"])], .obj [("grant_types", .arr [.str "authorization_code"])], false⟩,
  ⟨1127, .obj [("grant_types", .obj [("default", .arr []), ("essential", .bool true)])], .obj [("grant_types", .obj [("subset_of", .arr [.str "authorization_code"])])], some (.obj [("grant_types", .obj [("default", .arr []), ("subset_of", .arr [.str "authorization_code"]), ("essential", .bool true)])]), .obj [("grant_types", .arr [.str "authorization_code", .str "password"])], .obj [("grant_types", .arr [.str "authorization_code"])], false⟩,
  ⟨1128, .obj [("grant_types", .obj [("default", .arr [])])], .obj [("grant_types", .obj [("subset_of", .arr [.str "authorization_code"]), ("essential", .bool true)])], some (.obj [("grant_types", .obj [("default", .arr []), ("subset_of", .arr [.str "authorization_code"]), ("essential", .bool true)])]), .obj [("grant_types", .arr [.str "authorization_code", .str "password"])], .obj [("grant_types", .arr [.str "authorization_code"])], false⟩,
  ⟨1129, .obj [("grant_types", .obj [("default", .arr [])])], .obj [("grant_types", .obj [("subset_of", .arr [.str "authorization_code"])])], some (.obj [("grant_types", .obj [("default", .arr []), ("subset_of", .arr [.str "authorization_code"])])]), .obj [("grant_types", .arr [.str "authorization_code", .str "password"])], .obj [("grant_types", .arr [.str "authorization_code"])], false⟩,
  ⟨1130, .obj [("grant_types", .obj [("default", .arr []), ("essential", .bool true)])], .obj [("grant_types", .obj [("subset_of", .arr [.str "authorization_code"]), ("essential", .bool true)])], some (.obj [("grant_types", .obj [("default", .arr []), ("subset_of", .arr [.str "authorization_code"]), ("essential", .bool true)])]), .obj [("grant_types", .arr [])], .obj [("grant_types", .arr [])], false⟩,
  ⟨1131, .obj [("grant_types", .obj [("default", .arr []), ("essential", .bool true)])], .obj [("grant_types", .obj [("subset_of", .arr [.str "authorization_code"])])], some (.obj [("grant_types", .obj [("default", .arr []), ("subset_of", .arr [.str "authorization_code"]), ("essential", .bool true)])]), .obj [("grant_types", .arr [])], .obj [("grant_types", .arr [])], false⟩,
  ⟨1132, .obj [("grant_types", .obj [("default", .arr [])])], .obj [("grant_types", .obj [("subset_of", .arr [.str "authorization_code"]), ("essential", .bool true)])], some (.obj [("grant_types", .obj [("default", .arr []), ("subset_of", .arr [.str "authorization_code"]), ("essential", .bool true)])]), .obj [("grant_types", .arr [])], .obj [("grant_types", .arr [])], false⟩,
  ⟨1133, .obj [("grant_types", .obj [("default", .arr [])])], .obj [("grant_types", .obj [("subset_of", .arr [.str "authorization_code"])])], some (.obj [("grant_types", .obj [("default", .arr []), ("subset_of", .arr [.str "authorization_code"])])]), .obj [("grant_types", .arr [])], .obj [("grant_types", .arr [])], false⟩,
  ⟨1134, .obj [("grant_types", .obj [("default", .arr []), ("essential", .bool true)])], .obj [("grant_types", .obj [("subset_of", .arr [.str "authorization_code"]), ("essential", .bool true)])], some (.obj [("grant_types", .obj [("default", .arr []), ("subset_of", .arr [.str "authorization_code"]), ("essential", .bool true)])]), .obj [], .obj [("grant_types", .arr [])], false⟩,
  ⟨1135, .obj [("grant_types", .obj [("default", .arr []), ("essential", .bool true)])], .obj [("grant_types", .obj [("subset_of", .arr [.str "authorization_code"])])], some (.obj [("grant_types", .obj [("default", .arr []), ("subset_of", .arr [.str "authorization_code"]), ("essential", .bool true)])]), .obj [], .obj [("grant_types", .arr [])], false⟩,
  ⟨1136, .obj [("grant_types", .obj [("default", .arr [])])], .obj [("grant_types", .obj [("subset_of", .arr [.str "authorization_code"]), ("essential", .bool true)])], some (.obj [("grant_types", .obj [("default", .arr []), ("subset_of", .arr [.str "authorization_code"]), ("essential", .bool true)])]), .obj [], .obj [("grant_types", .arr [])], false⟩,
  ⟨1137, .obj [("grant_types", .obj [("default", .arr [])])], .obj [("grant_types", .obj [("subset_of", .arr [.str "authorization_code"])])], some (.obj [("grant_types", .obj [("default", .arr []), ("subset_of", .arr [.str "authorization_code"])])]), .obj [], .obj [("grant_types", .arr [])], false⟩,
  ⟨1138, .obj [("grant_types", .obj [("default", .arr []), ("essential", .bool true)])], .obj [("grant_types", .obj [("subset_of", .arr [.str "authorization_code", .str "refresh_token"]), ("essential", .bool true)])], some (.obj [("grant_types", .obj [("default", .arr []), ("subset_of", .arr [.str "authorization_code", .str "refresh_token"]), ("essential", .bool true)])]), .obj [("grant_types", .arr [.str "authorization_code"])], .obj [("grant_types", .arr [.str "authorization_code"])], false⟩,
  ⟨1139, .obj [("grant_types", .obj [("default", .arr []), ("essential", .bool true)])], .obj [("grant_types", .obj [("subset_of", .arr [.str "authorization_code", .str "refresh_token"])])], some (.obj [("grant_types", .obj [("default", .arr []), ("subset_of", .arr [.str "authorization_code", .str "refresh_token"]), ("essential", .bool true)])]), .obj [("grant_types", .arr [.str "authorization_code"])], .obj [("grant_types", .arr [.str "authorization_code"])], false⟩,
  ⟨1140, .obj [("grant_types", .obj [("default", .arr [])])], .obj [("grant_types", .obj [("subset_of", .arr [.str "authorization_code", .str "refresh_token"]), ("essential", .bool true)])], some (.obj [("grant_types", .obj [("default", .arr []), ("subset_of", .arr [.str "authorization_code", .str "refresh_token"]), ("essential", .bool true)])]), .obj [("grant_types", .arr [.str "authorization_code"])], .obj [("grant_types", .arr [.str "authorization_code"])], false⟩,
  ⟨1141, .obj [("grant_types", .obj [("default", .arr [])])], .obj [("grant_types", .obj [("subset_of", .arr [.str "authorization_code", .str "refresh_token"])])], some (.obj [("grant_types", .obj [("default", .arr []), ("subset_of", .arr [.str "authorization_code", .str "refresh_token"])])]), .obj [("grant_types", .arr [.str "authorization_code"])], .obj [("grant_types", .arr [.str "authorization_code"])], false⟩,
  ⟨1142, .obj [("grant_types", .obj [("default", .arr []), ("essential", .bool true)])], .obj [("grant_types", .obj [("subset_of", .arr [.str "authorization_code", .str "refresh_token"]), ("essential", .bool true)])], some (.obj [("grant_types", .obj [("default", .arr []), ("subset_of", .arr [.str "authorization_code", .str "refresh_token"]), ("essential", .bool true)])]), .obj [("grant_types", .arr [.str "password"])], .obj [("grant_types", .arr [])], false⟩,
  ⟨1143, .obj [("grant_types", .obj [("default", .arr []), ("essential", .bool true)])], .obj [("grant_types", .obj [("subset_of", .arr [.str "authorization_code", .str "refresh_token"])])], some (.obj [("grant_types", .obj [("default", .arr []), ("subset_of", .arr [.str "authorization_code", .str "refresh_token"]), ("essential", .bool true)])]), .obj [("grant_types", .arr [.str "password"])], .obj [("grant_types", .arr [])], false⟩,
  ⟨1144, .obj [("grant_types", .obj [("default", .arr [])])], .obj [("grant_types", .obj [("subset_of", .arr [.str "authorization_code", .str "refresh_token"]), ("essential", .bool true)])], some (.obj [("grant_types", .obj [("default", .arr []), ("subset_of", .arr [.str "authorization_code", .str "refresh_token"]), ("essential", .bool true)])]), .obj [("grant_types", .arr [.str "password"])], .obj [("grant_types", .arr [])], false⟩,
  ⟨1145, .obj [("grant_types", .obj [("default", .arr [])])], .obj [("grant_types", .obj [("subset_of", .arr [.str "authorization_code", .str "refresh_token"])])], some (.obj [("grant_types", .obj [("default", .arr []), ("subset_of", .arr [.str "authorization_code", .str "refresh_token"])])]), .obj [("grant_types", .arr [.str "password"])], .obj [("grant_types", .arr [])], false⟩,
  ⟨1146, .obj [("grant_types", .obj [("default", .arr []), ("essential", .bool true)])], .obj [("grant_types", .obj [("subset_of", .arr [.str "authorization_code", .str "refresh_token"]), ("essential", .bool true)])], some (.obj [("grant_types", .obj [("default", .arr []), ("subset_of", .arr [.str "authorization_code", .str "refresh_token"]), ("essential", .bool true)])]), .obj [("grant_types", .arr [.str "authorization_code", .str "refresh_token"])], .obj [("grant_types", .arr [.str "authorization_code", .str "refresh_token"])], false⟩,
  ⟨1147, .obj [("grant_types", .obj [("default", .arr []), ("essential", .bool true)])], .obj [("grant_types", .obj [("subset_of", .arr [.str "authorization_code", .str "refresh_token"])])], some (.obj [("grant_types", .obj [("default", .arr []), ("subset_of", .arr [.str "authorization_code", .str "refresh_token"]), ("essential", .bool true)])]), .obj [("grant_types", .arr [.str "authorization_code", .str "refresh_token"])], .obj [("grant_types", .arr [.str "authorization_code", .str "refresh_token"])], false⟩,
  ⟨1148, .obj [("grant_types", .obj [("default", .arr [])])], .obj [("grant_types", .obj [("subset_of", .arr [.str "authorization_code", .str "refresh_token"]), ("essential", .bool true)])], some (.obj [("grant_types", .obj [("default", .arr []), ("subset_of", .arr [.str "authorization_code", .str "refresh_token"]), ("essential", .bool true)])]), .obj [("grant_types", .arr [.str "authorization_code", .str "refresh_token"])], .obj [("grant_types", .arr [.str "authorization_code", .str "refresh_token"])], false⟩,
  ⟨1149, .obj [("grant_types", .obj [("default", .arr [])])], .obj [("grant_types", .obj [("subset_of", .arr [.str "authorization_code", .str "refresh_token"])])], some (.obj [("grant_types", .obj [("default", .arr []), ("subset_of", .arr [.str "authorization_code", .str "refresh_token"])])]), .obj [("grant_types", .arr [.str "authorization_code", .str "refresh_token"])], .obj [("grant_types", .arr [.str "authorization_code", .str "refresh_token"])], false⟩,
  ⟨1150, .obj [("grant_types", .obj [("default", .arr []), ("essential", .bool true)])], .obj [("grant_types", .obj [("subset_of", .arr [.str "authorization_code", .str "refresh_token"]), ("essential", .bool true)])], some (.obj [("grant_types", .obj [("default", .arr []), ("subset_of", .arr [.str "authorization_code", .str "refresh_token"]), ("essential", .bool true)])]), .obj [("grant_types", .arr [.str "authorization_code", .str "password"])], .obj [("grant_types", .arr [.str "authorization_code"])], false⟩,
  ⟨1151, .obj [("grant_types", .obj [("default", .arr []), ("essential", .bool true)])], .obj [("grant_types", .obj [("subset_of", .arr [.str "authorization_code", .str "refresh_token"])])], some (.obj [("grant_types", .obj [("default", .arr []), ("subset_of", .arr [.str "authorization_code", .str "refresh_token"]), ("essential", .bool true)])]), .obj [("grant_types", .arr [.str "authorization_code", .str "password"])], .obj [("grant_types", .arr [.str "authorization_code"])], false⟩,
  ⟨1152, .obj [("grant_types", .obj [("default", .arr [])])], .obj [("grant_types", .obj [("subset_of", .arr [.str "authorization_code", .str "refresh_token"]), ("essential", .bool true)])], some (.obj [("grant_types", .obj [("default", .arr []), ("subset_of", .arr [.str "authorization_code", .str "refresh_token"]), ("essential", .bool true)])]), .obj [("grant_types", .arr [.str "authorization_code", .str "password"])], .obj [("grant_types", .arr [.str "authorization_code"])], false⟩,
  ⟨1153, .obj [("grant_types", .obj [("default", .arr [])])], .obj [("grant_types", .obj [("subset_of", .arr [.str "authorization_code", .str "refresh_token"])])], some (.obj [("grant_types", .obj [("default", .arr []), ("subset_of", .arr [.str "authorization_code", .str "refresh_token"])])]), .obj [("grant_types", .arr [.str "authorization_code", .str "password"])], .obj [("grant_types", .arr [.str "authorization_code"])], false⟩,
  ⟨1154, .obj [("grant_types", .obj [("default", .arr []), ("essential", .bool true)])], .obj [("grant_types", .obj [("subset_of", .arr [.str "authorization_code", .str "refresh_token"]), ("essential", .bool true)])], some (.obj [("grant_types", .obj [("default", .arr []), ("subset_of", .arr [.str "authorization_code", .str "refresh_token"]), ("essential", .bool true)])]), .obj [("grant_types", .arr [])], .obj [("grant_types", .arr [])], false⟩,
  ⟨1155, .obj [("grant_types", .obj [("default", .arr []), ("essential", .bool true)])], .obj [("grant_types", .obj [("subset_of", .arr [.str "authorization_code", .str "refresh_token"])])], some (.obj [("grant_types", .obj [("default", .arr []), ("subset_of", .arr [.str "authorization_code", .str "refresh_token"]), ("essential", .bool true)])]), .obj [("grant_types", .arr [])], .obj [("grant_types", .arr [])], false⟩,
  ⟨1156, .obj [("grant_types", .obj [("default", .arr [])])], .obj [("grant_types", .obj [("subset_of", .arr [.str "authorization_code", .str "refresh_token"]), ("essential", .bool true)])], some (.obj [("grant_types", .obj [("default", .arr []), ("subset_of", .arr [.str "authorization_code", .str "refresh_token"]), ("essential", .bool true)])]), .obj [("grant_types", .arr [])], .obj [("grant_types", .arr [])], false⟩,
  ⟨1157, .obj [("grant_types", .obj [("default", .arr [])])], .obj [("grant_types", .obj [("subset_of", .arr [.str "authorization_code", .str "refresh_token"])])], some (.obj [("grant_types", .obj [("default", .arr []), ("subset_of", .arr [.str "authorization_code", .str "refresh_token"])])]), .obj [("grant_types", .arr [])], .obj [("grant_types", .arr [])], false⟩,
  ⟨1158, .obj [("grant_types", .obj [("default", .arr []), ("essential", .bool true)])], .obj [("grant_types", .obj [("subset_of", .arr [.str "authorization_code", .str "refresh_token"]), ("essential", .bool true)])], some (.obj [("grant_types", .obj [("default", .arr []), ("subset_of", .arr [.str "authorization_code", .str "refresh_token"]), ("essential", .bool true)])]), .obj [], .obj [("grant_types", .arr [])], false⟩,
  ⟨1159, .obj [("grant_types", .obj [("default", .arr []), ("essential", .bool true)])], .obj [("grant_types", .obj [("subset_of", .arr [.str "authorization_code", .str "refresh_token"])])], some (.obj [("grant_types", .obj [("default", .arr []), ("subset_of", .arr [.str "authorization_code", .str "refresh_token"]), ("essential", .bool true)])]), .obj [], .obj [("grant_types", .arr [])], false⟩,
  ⟨1160, .obj [("grant_types", .obj [("default", .arr [])])], .obj [("grant_types", .obj [("subset_of", .arr [.str "authorization_code", .str "refresh_token"]), ("essential", .bool true)])], some (.obj [("grant_types", .obj [("default", .arr []), ("subset_of", .arr [.str "authorization_code", .str "refresh_token"]), ("essential", .bool true)])]), .obj [], .obj [("grant_types", .arr [])], false⟩,
  ⟨1161, .obj [("grant_types", .obj [("default", .arr [])])], .obj [("grant_types", .obj [("subset_of", .arr [.str "authorization_code", .str "refresh_token"])])], some (.obj [("grant_types", .obj [("default", .arr []), ("subset_of", .arr [.str "authorization_code", .str "refresh_token"])])]), .obj [], .obj [("grant_types", .arr [])], false⟩,
  ⟨1162, .obj [("grant_types", .obj [("default", .arr [.str "authorization_code"]), ("essential", .bool true)])], .obj [("grant_types", .obj [("subset_of", .arr [.str "authorization_code", .str "refresh_token"]), ("essential", .bool true)])], some (.obj [("grant_types", .obj [("default", .arr [.str "authorization_code"]), ("subset_of", .arr [.str "authorization_code", .str "refresh_token"]), ("essential", .bool true)])]), .obj [("grant_types", .arr [.str "authorization_code"])], .obj [("grant_types", .arr [.str "authorization_code"])], false⟩,
  ⟨1163, .obj [("grant_types", .obj [("default", .arr [.str "authorization_code"]), ("essential", .bool true)])], .obj [("grant_types", .obj [("subset_of", .arr [.str "authorization_code", .str "refresh_token"])])], some (.obj [("grant_types", .obj [("default", .arr [.str "authorization_code"]), ("subset_of", .arr [.str "authorization_code", .str "refresh_token"]), ("essential", .bool true)])]), .obj [("grant_types", .arr [.str "authorization_code"])], .obj [("grant_types", .arr [.str "authorization_code"])], false⟩,
  ⟨1164, .obj [("grant_types", .obj [("default", .arr [.str "authorization_code"])])], .obj [("grant_types", .obj [("subset_of", .arr [.str "authorization_code", .str "refresh_token"]), ("essential", .bool true)])], some (.obj [("grant_types", .obj [("default", .arr [.str "authorization_code"]), ("subset_of", .arr [.str "authorization_code", .str "refresh_token"]), ("essential", .bool true)])]), .obj [("grant_types", .arr [.str "authorization_code"])], .obj [("grant_types", .arr [.str "authorization_code"])], false⟩,
  ⟨1165, .obj [("grant_types", .obj [("default", .arr [.str "authorization_code"])])], .obj [("grant_types", .obj [("subset_of", .arr [.str "authorization_code", .str "refresh_token"])])], some (.obj [("grant_types", .obj [("default", .arr [.str "authorization_code"]), ("subset_of", .arr [.str "authorization_code", .str "refresh_token"])])]), .obj [("grant_types", .arr [.str "authorization_code"])], .obj [("grant_types", .arr [.str "authorization_code"])], false⟩,
  ⟨1166, .obj [("grant_types", .obj [("default", .arr [.str "authorization_code"]), ("essential", .bool true)])], .obj [("grant_types", .obj [("subset_of", .arr [.str "authorization_code", .str "refresh_token"]), ("essential", .bool true)])], some (.obj [("grant_types", .obj [("default", .arr [.str "authorization_code"]), ("subset_of", .arr [.str "authorization_code", .str "refresh_token"]), ("essential", .bool true)])]), .obj [("grant_types", .arr [.str "password"])], .obj [("grant_types", .arr [])], false⟩,
  ⟨1167, .obj [("grant_types", .obj [("default", .arr [.str "authorization_code"]), ("essential", .bool true)])], .obj [("grant_types", .obj [("subset_of", .arr [.str "authorization_code", .str "refresh_token"])])], some (.obj [("grant_types", .obj [("default", .arr [.str "authorization_code"]), ("subset_of", .arr [.str "authorization_code", .str "refresh_token"]), ("essential", .bool true)])]), .obj [("grant_types", .arr [.str "password"])], .obj [("grant_types", .arr [])], false⟩,
  ⟨1168, .obj [("grant_types", .obj [("default", .arr [.str "authorization_code"])])], .obj [("grant_types", .obj [("subset_of", .arr [.str "authorization_code", .str "refresh_token"]), ("essential", .bool true)])], some (.obj [("grant_types", .obj [("default", .arr [.str "authorization_code"]), ("subset_of", .arr [.str "authorization_code", .str "refresh_token"]), ("essential", .bool true)])]), .obj [("grant_types", .arr [.str "password"])], .obj [("grant_types", .arr [])], false⟩,
  ⟨1169, .obj [("grant_types", .obj [("default", .arr [.str "authorization_code"])])], .obj [("grant_types", .obj [("subset_of", .arr [.str "authorization_code", .str "refresh_token"])])], some (.obj [("grant_types", .obj [("default", .arr [.str "authorization_code"]), ("subset_of", .arr [.str "authorization_code", .str "refresh_token"])])]), .obj [("grant_types", .arr [.str "password"])], .obj [("grant_types", .arr [])], false⟩,
  ⟨1170, .obj [("grant_types", .obj [("default", .arr [.str "authorization_code"]), ("essential", .bool true)])], .obj [("grant_types", .obj [("subset_of", .arr [.str "authorization_code", .str "refresh_token"]), ("essential", .bool true)])], some (.obj [("grant_types", .obj [("default", .arr [.str "authorization_code"]), ("subset_of", .arr [.str "authorization_code", .str "refresh_token"]), ("essential", .bool true)])]), .obj [("grant_types", .arr [.str "authorization_code", .str "refresh_token"])], .obj [("grant_types", .arr [.str "authorization_code", .str "refresh_token"])], false⟩,
  ⟨1171, .obj [("grant_types", .obj [("default", .arr [.str "authorization_code"]), ("essential", .bool true)])], .obj [("grant_types", .obj [("subset_of", .arr [.str "authorization_code", .str "refresh_token"])])], some (.obj [("grant_types", .obj [("default", .arr [.str "authorization_code"]), ("subset_of", .arr [.str "authorization_code", .str "refresh_token"]), ("essential", .bool true)])]), .obj [("grant_types", .arr [.str "authorization_code", .str "refresh_token"])], .obj [("grant_types", .arr [.str "authorization_code", .str "refresh_token"])], false⟩,
  ⟨1172, .obj [("grant_types", .obj [("default", .arr [.str "authorization_code"])])], .obj [("grant_types", .obj [("subset_of", .arr [.str "authorization_code", .str "refresh_token"]), ("essential", .bool true)])], some (.obj [("grant_types", .obj [("default", .arr [.str "authorization_code"]), ("subset_of", .arr [.str "authorization_code", .str "refresh_token"]), ("essential", .bool true)])]), .obj [("grant_types", .arr [.str "authorization_code", .str "refresh_token"])], .obj [("grant_types", .arr [.str "authorization_code", .str "refresh_token"])], false⟩,
  ⟨1173, .obj [("grant_types", .obj [("default", .arr [.str "authorization_code"])])], .obj [("grant_types", .obj [("subset_of", .arr [.str "authorization_code", .str "refresh_token"])])], some (.obj [("grant_types", .obj [("default", .arr [.str "authorization_code"]), ("subset_of", .arr [.str "authorization_code", .str "refresh_token"])])]), .obj [("grant_types", .arr [.str "authorization_code", .str "refresh_token"])], .obj [("grant_types", .arr [.str "authorization_code", .str "refresh_token"])], false⟩,
  ⟨1174, .obj [("grant_types", .obj [("default", .arr [.str "authorization_code"]), ("essential", .bool true)])], .obj [("grant_types", .obj [("subset_of", .arr [.str "authorization_code", .str "refresh_token"]), ("essential", .bool true)])], some (.obj [("grant_types", .obj [("default", .arr [.str "authorization_code"]), ("subset_of", .arr [.str "authorization_code", .str "refresh_token"]), ("essential", .bool true)])]), .obj [("grant_types", .arr [.str "authorization_code", .str "password"])], .obj [("grant_types", .arr [.str "authorization_code"])], false⟩,
  ⟨1175, .obj [("grant_types", .obj [("default", .arr [.str "authorization_code"]), ("essential", .bool true)])], .obj [("grant_types", .obj [("subset_of", .arr [.str "authorization_code", .str "refresh_token"])])], some (.obj [("grant_types", .obj [("default", .arr [.str "authorization_code"]), ("subset_of", .arr [.str "authorization_code", .str "refresh_token"]), ("essential", .bool true)])]), .obj [("grant_types", .arr [.str "authorization_code", .str "password"])], .obj [("grant_types", .arr [.str "authorization_code"])], false⟩,
  ⟨1176, .obj [("grant_types", .obj [("default", .arr [.str "authorization_code"])])], .obj [("grant_types", .obj [("subset_of", .arr [.str "authorization_code", .str "refresh_token"]), ("essential", .bool true)])], some (.obj [("grant_types", .obj [("default", .arr [.str "authorization_code"]), ("subset_of", .arr [.str "authorization_code", .str "refresh_token"]), ("essential", .bool true)])]), .obj [("grant_types", .arr [.str "authorization_code", .str "password"])], .obj [("grant_types", .arr [.str "authorization_code"])], false⟩,
  ⟨1177, .obj [("grant_types", .obj [("default", .arr [.str "authorization_code"])])], .obj [("grant_types", .obj [("subset_of", .arr [.str "authorization_code", .str "refresh_token"])])], some (.obj [("grant_types", .obj [("default", .arr [.str "authorization_code"]), ("subset_of", .arr [.str "authorization_code", .str "refresh_token"])])]), .obj [("grant_types", .arr [.str "authorization_code", .str "password"])], .obj [("grant_types", .arr [.str "authorization_code"])], false⟩,
  ⟨1178, .obj [("grant_types", .obj [("default", .arr [.str "authorization_code"]), ("essential", .bool true)])], .obj [("grant_types", .obj [("subset_of", .arr [.str "authorization_code", .str "refresh_token"]), ("essential", .bool true)])], some (.obj [("grant_types", .obj [("default", .arr [.str "authorization_code"]), ("subset_of", .arr [.str "authorization_code", .str "refresh_token"]), ("essential", .bool true)])]), .obj [("grant_types", .arr [])], .obj [("grant_types", .arr [])], false⟩,
  ⟨1179, .obj [("grant_types", .obj [("default", .arr [.str "authorization_code"]), ("essential", .bool true)])], .obj [("grant_types", .obj [("subset_of", .arr [.str "authorization_code", .str "refresh_token"])])], some (.obj [("grant_types", .obj [("default", .arr [.str "authorization_code"]), ("subset_of", .arr [.str "authorization_code", .str "refresh_token"]), ("essential", .bool true)])]), .obj [("grant_types", .arr [])], .obj [("grant_types", .arr [])], false⟩,
  ⟨1180, .obj [("grant_types", .obj [("default", .arr [.str "authorization_code"])])], .obj [("grant_types", .obj [("subset_of", .arr [.str "authorization_code", .str "refresh_token"]), ("essential", .bool true)])], some (.obj [("grant_types", .obj [("default", .arr [.str "authorization_code"]), ("subset_of", .arr [.str "authorization_code", .str "refresh_token"]), ("essential", .bool true)])]), .obj [("grant_types", .arr [])], .obj [("grant_types", .arr [])], false⟩,
  ⟨1181, .obj [("grant_types", .obj [("default", .arr [.str "authorization_code"])])], .obj [("grant_types", .obj [("subset_of", .arr [.str "authorization_code", .str "refresh_token"])])], some (.obj [("grant_types", .obj [("default", .arr [.str "authorization_code"]), ("subset_of", .arr [.str "authorization_code", .str "refresh_token"])])]), .obj [("grant_types", .arr [])], .obj [("grant_types", .arr [])], false⟩,
  ⟨1182, .obj [("grant_types", .obj [("default", .arr [.str "authorization_code"]), ("essential", .bool true)])], .obj [("grant_types", .obj [("subset_of", .arr [.str "authorization_code", .str "refresh_token"]), ("essential", .bool true)])], some (.obj [("grant_types", .obj [("default", .arr [.str "authorization_code"]), ("subset_of", .arr [.str "authorization_code", .str "refresh_token"]), ("essential", .bool true)])]), .obj [], .obj [("grant_types", .arr [.str "authorization_code"])], false⟩,
  ⟨1183, .obj [("grant_types", .obj [("default", .arr [.str "authorization_code"]), ("essential", .bool true)])], .obj [("grant_types", .obj [("subset_of", .arr [.str "authorization_code", .str "refresh_token"])])], some (.obj [("grant_types", .obj [("default", .arr [.str "authorization_code"]), ("subset_of", .arr [.str "authorization_code", .str "refresh_token"]), ("essential", .bool true)])]), .obj [], .obj [("grant_types", .arr [.str "authorization_code"])], false⟩,
  ⟨1184, .obj [("grant_types", .obj [("default", .arr [.str "authorization_code"])])], .obj [("grant_types", .obj [("subset_of", .arr [.str "authorization_code", .str "refresh_token"]), ("essential", .bool true)])], some (.obj [("grant_types", .obj [("default", .arr [.str "authorization_code"]), ("subset_of", .arr [.str "authorization_code", .str "refresh_token"]), ("essential", .bool true)])]), .obj [], .obj [("grant_types", .arr [.str "authorization_code"])], false⟩,
  ⟨1185, .obj [("grant_types", .obj [("default", .arr [.str "authorization_code"])])], .obj [("grant_types", .obj [("subset_of", .arr [.str "authorization_code", .str "refresh_token"])])], some (.obj [("grant_types", .obj [("default", .arr [.str "authorization_code"]), ("subset_of", .arr [.str "authorization_code", .str "refresh_token"])])]), .obj [], .obj [("grant_types", .arr [.str "authorization_code"])], false⟩,
  ⟨1186, .obj [("grant_types", .obj [("default", .arr []), ("essential", .bool true)])], .obj [("grant_types", .obj [("superset_of", .arr [.str "authorization_code"]), ("essential", .bool true)])], some (.obj [("grant_types", .obj [("default", .arr []), ("superset_of", .arr [.str "authorization_code"]), ("essential", .bool true)])]), .obj [("grant_types", .arr [.str "authorization_code"])], .obj [("grant_types", .arr [.str "authorization_code"])], false⟩,
  ⟨1187, .obj [("grant_types", .obj [("default", .arr []), ("essential", .bool true)])], .obj [("grant_types", .obj [("superset_of", .arr [.str "authorization_code"])])], some (.obj [("grant_types", .obj [("default", .arr []), ("superset_of", .arr [.str "authorization_code"]), ("essential", .bool true)])]), .obj [("grant_types", .arr [.str "authorization_code"])], .obj [("grant_types", .arr [.str "authorization_code"])], false⟩,
  ⟨1188, .obj [("grant_types", .obj [("default", .arr [])])], .obj [("grant_types", .obj [("superset_of", .arr [.str "authorization_code"]), ("essential", .bool true)])], some (.obj [("grant_types", .obj [("default", .arr []), ("superset_of", .arr [.str "authorization_code"]), ("essential", .bool true)])]), .obj [("grant_types", .arr [.str "authorization_code"])], .obj [("grant_types", .arr [.str "authorization_code"])], false⟩,
  ⟨1189, .obj [("grant_types", .obj [("default", .arr [])])], .obj [("grant_types", .obj [("superset_of", .arr [.str "authorization_code"])])], some (.obj [("grant_types", .obj [("default", .arr []), ("superset_of", .arr [.str "authorization_code"])])]), .obj [("grant_types", .arr [.str "authorization_code"])], .obj [("grant_types", .arr [.str "authorization_code"])], false⟩,
  ⟨1190, .obj [("grant_types", .obj [("default", .arr []), ("essential", .bool true)])], .obj [("grant_types", .obj [("superset_of", .arr [.str "authorization_code"]), ("essential", .bool true)])], some (.obj [("grant_types", .obj [("default", .arr []), ("superset_of", .arr [.str "authorization_code"]), ("essential", .bool true)])]), .obj [("grant_types", .arr [.str "password"])], .obj [], true⟩,
  ⟨1191, .obj [("grant_types", .obj [("default", .arr []), ("essential", .bool true)])], .obj [("grant_types", .obj [("superset_of", .arr [.str "authorization_code"])])], some (.obj [("grant_types", .obj [("default", .arr []), ("superset_of", .arr [.str "authorization_code"]), ("essential", .bool true)])]), .obj [("grant_types", .arr [.str "password"])], .obj [], true⟩,
  ⟨1192, .obj [("grant_types", .obj [("default", .arr [])])], .obj [("grant_types", .obj [("superset_of", .arr [.str "authorization_code"]), ("essential", .bool true)])], some (.obj [("grant_types", .obj [("default", .arr []), ("superset_of", .arr [.str "authorization_code"]), ("essential", .bool true)])]), .obj [("grant_types", .arr [.str "password"])], .obj [], true⟩,
  ⟨1193, .obj [("grant_types", .obj [("default", .arr [])])], .obj [("grant_types", .obj [("superset_of", .arr [.str "authorization_code"])])], some (.obj [("grant_types", .obj [("default", .arr []), ("superset_of", .arr [.str "authorization_code"])])]), .obj [("grant_types", .arr [.str "password"])], .obj [], true⟩,
  ⟨1194, .obj [("grant_types", .obj [("default", .arr []), ("essential", .bool true)])], .obj [("grant_types", .obj [("superset_of", .arr [.str "authorization_code"]), ("essential", .bool true)])], some (.obj [("grant_types", .obj [("default", .arr []), ("superset_of", .arr [.str "authorization_code"]), ("essential", .bool true)])]), .obj [("grant_types", .arr [.str "authorization_code", .str "refresh_token"])], .obj [("grant_types", .arr [.str "authorization_code", .str "refresh_token"])], false⟩,
  ⟨1195, .obj [("grant_types", .obj [("default", .arr []), ("essential", .bool true)])], .obj [("grant_types", .obj [("superset_of", .arr [.str "authorization_code"])])], some (.obj [("grant_types", .obj [("default", .arr []), ("superset_of", .arr [.str "authorization_code"]), ("essential", .bool true)])]), .obj [("grant_types", .arr [.str "authorization_code", .str "refresh_token"])], .obj [("grant_types", .arr [.str "authorization_code", .str "refresh_token"])], false⟩,
  ⟨1196, .obj [("grant_types", .obj [("default", .arr [])])], .obj [("grant_types", .obj [("superset_of", .arr [.str "authorization_code"]), ("essential", .bool true)])], some (.obj [("grant_types", .obj [("default", .arr []), ("superset_of", .arr [.str "authorization_code"]), ("essential", .bool true)])]), .obj [("grant_types", .arr [.str "authorization_code", .str "refresh_token"])], .obj [("grant_types", .arr [.str "authorization_code", .str "refresh_token"])], false⟩,
  ⟨1197, .obj [("grant_types", .obj [("default", .arr [])])], .obj [("grant_types", .obj [("superset_of", .arr [.str "authorization_code"])])], some (.obj [("grant_types", .obj [("default", .arr []), ("superset_of", .arr [.str "authorization_code"])])]), .obj [("grant_types", .arr [.str "authorization_code", .str "refresh_token"])], .obj [("grant_types", .arr [.str "authorization_code", .str "refresh_token"])], false⟩,
  ⟨1198, .obj [("grant_types", .obj [("default", .arr []), ("essential", .bool true)])], .obj [("grant_types", .obj [("superset_of", .arr [.str "authorization_code"]), ("essential", .bool true)])], some (.obj [("grant_types", .obj [("default", .arr []), ("superset_of", .arr [.str "authorization_code"]), ("essential", .bool true)])]), .obj [("grant_types", .arr [.str "authorization_code", .str "password"])], .obj [("grant_types", .arr [.str "authorization_code", .str "password"])], false⟩,
  ⟨1199, .obj [("grant_types", .obj [("default", .arr []), ("essential", .bool true)])], .obj [("grant_types", .obj [("superset_of", .arr [.str "authorization_code"])])], some (.obj [("grant_types", .obj [("default", .arr []), ("superset_of", .arr [.str "authorization_code"]), ("essential", .bool true)])]), .obj [("grant_types", .arr [.str "authorization_code", .str "password"])], .obj [("grant_types", .arr [.str "authorization_code", .str "password"])], false⟩,
  ⟨1200, .obj [("grant_types", .obj [("default", .arr [])])], .obj [("grant_types", .obj [("superset_of", .arr [.str "authorization_code"]), ("essential", .bool true)])], some (.obj [("grant_types", .obj [("default", .arr []), ("superset_of", .arr [.str "authorization_code"]), ("essential", .bool true)])]), .obj [("grant_types", .arr [.str "authorization_code", .str "password"])], .obj [("grant_types", .arr [.str "authorization_code", .str "password"])], false⟩,
  ⟨1201, .obj [("grant_types", .obj [("default", .arr [])])], .obj [("grant_types", .obj [("superset_of", .arr [.str "authorization_code"])])], some (.obj [("grant_types", .obj [("default", .arr []), ("superset_of", .arr [.str "authorization_code"])])]), .obj [("grant_types", .arr [.str "authorization_code", .str "password"])], .obj [("grant_types", .arr [.str "authorization_code", .str "password"])], false⟩,
  ⟨1202, .obj [("grant_types", .obj [("default", .arr []), ("essential", .bool true)])], .obj [("grant_types", .obj [("superset_of", .arr [.str "authorization_code"]), ("essential", .bool true)])], some (.obj [("grant_types", .obj [("default", .arr []), ("superset_of", .arr [.str "authorization_code"]), ("essential", .bool true)])]), .obj [("grant_types", .arr [])], .obj [], true⟩,
  ⟨1203, .obj [("grant_types", .obj [("default", .arr []), ("essential", .bool true)])], .obj [("grant_types", .obj [("superset_of", .arr [.str "authorization_code"])])], some (.obj [("grant_types", .obj [("default", .arr []), ("superset_of", .arr [.str "authorization_code"]), ("essential", .bool true)])]), .obj [("grant_types", .arr [])], .obj [], true⟩,
  ⟨1204, .obj [("grant_types", .obj [("default", .arr [])])], .obj [("grant_types", .obj [("superset_of", .arr [.str "authorization_code"]), ("essential", .bool true)])], some (.obj [("grant_types", .obj [("default", .arr []), ("superset_of", .arr [.str "authorization_code"]), ("essential", .bool true)])]), .obj [("grant_types", .arr [])], .obj [], true⟩,
  ⟨1205, .obj [("grant_types", .obj [("default", .arr [])])], .obj [("grant_types", .obj [("superset_of", .arr [.str "authorization_code"])])], some (.obj [("grant_types", .obj [("default", .arr []), ("superset_of", .arr [.str "authorization_code"])])]), .obj [("grant_types", .arr [])], .obj [], true⟩,
  ⟨1206, .obj [("grant_types", .obj [("default", .arr []), ("essential", .bool true)])], .obj [("grant_types", .obj [("superset_of", .arr [.str "authorization_code"]), ("essential", .bool true)])], some (.obj [("grant_types", .obj [("default", .arr []), ("superset_of", .arr [.str "authorization_code"]), ("essential", .bool true)])]), .obj [], .obj [], true⟩,
  ⟨1207, .obj [("grant_types", .obj [("default", .arr []), ("essential", .bool true)])], .obj [("grant_types", .obj [("superset_of", .arr [.str "authorization_code"])])], some (.obj [("grant_types", .obj [("default", .arr []), ("superset_of", .arr [.str "authorization_code"]), ("essential", .bool true)])]), .obj [], .obj [], true⟩,
  ⟨1208, .obj [("grant_types", .obj [("default", .arr [])])], .obj [("grant_types", .obj [("superset_of", .arr [.str "authorization_code"]), ("essential", .bool true)])], some (.obj [("grant_types", .obj [("default", .arr []), ("superset_of", .arr [.str "authorization_code"]), ("essential", .bool true)])]), .obj [], .obj [], true⟩,
  ⟨1209, .obj [("grant_types", .obj [("default", .arr [])])], .obj [("grant_types", .obj [("superset_of", .arr [.str "authorization_code"])])], some (.obj [("grant_types", .obj [("default", .arr []), ("superset_of", .arr [.str "authorization_code"])])]), .obj [], .obj [], true⟩,
  ⟨1210, .obj [("grant_types", .obj [("default", .arr []), ("essential", .bool true)])], .obj [("grant_types", .obj [("superset_of", .arr [.str "authorization_code", .str "refresh_token"]), ("essential", .bool true)])], some (.obj [("grant_types", .obj [("default", .arr []), ("superset_of", .arr [.str "authorization_code", .str "refresh_token"]), ("essential", .bool true)])]), .obj [("grant_types", .arr [.str "authorization_code"])], .obj [], true⟩,
  ⟨1211, .obj [("grant_types", .obj [("default", .arr []), ("essential", .bool true)])], .obj [("grant_types", .obj [("superset_of", .arr [.str "authorization_code", .str "refresh_token"])])], some (.obj [("grant_types", .obj [("default", .arr []), ("superset_of", .arr [.str "authorization_code", .str "refresh_token"]), ("essential", .bool true)])]), .obj [("grant_types", .arr [.str "authorization_code"])], .obj [], true⟩,
  ⟨1212, .obj [("grant_types", .obj [("default", .arr [])])], .obj [("grant_types", .obj [("superset_of", .arr [.str "authorization_code", .str "refresh_token"]), ("essential", .bool true)])], some (.obj [("grant_types", .obj [("default", .arr []), ("superset_of", .arr [.str "authorization_code", .str "refresh_token"]), ("essential", .bool true)])]), .obj [("grant_types", .arr [.str "authorization_code"])], .obj [], true⟩,
  ⟨1213, .obj [("grant_types", .obj [("default", .arr [])])], .obj [("grant_types", .obj [("superset_of", .arr [.str "authorization_code", .str "refresh_token"])])], some (.obj [("grant_types", .obj [("default", .arr []), ("superset_of", .arr [.str "authorization_code", .str "refresh_token"])])]), .obj [("grant_types", .arr [.str "authorization_code"])], .obj [], true⟩,
  ⟨1214, .obj [("grant_types", .obj [("default", .arr []), ("essential", .bool true)])], .obj [("grant_types", .obj [("superset_of", .arr [.str "authorization_code", .str "refresh_token"]), ("essential", .bool true)])], some (.obj [("grant_types", .obj [("default", .arr []), ("superset_of", .arr [.str "authorization_code", .str "refresh_token"]), ("essential", .bool true)])]), .obj [("grant_types", .arr [.str "password"])], .obj [], true⟩,
  ⟨1215, .obj [("grant_types", .obj [("default", .arr []), ("essential", .bool true)])], .obj [("grant_types", .obj [("superset_of", .arr [.str "authorization_code", .str "refresh_token"])])], some (.obj [("grant_types", .obj [("default", .arr []), ("superset_of", .arr [.str "authorization_code", .str "refresh_token"]), ("essential", .bool true)])]), .obj [("grant_types", .arr [.str "password"])], .obj [], true⟩,
  ⟨1216, .obj [("grant_types", .obj [("default", .arr [])])], .obj [("grant_types", .obj [("superset_of", .arr [.str "authorization_code", .str "refresh_token"]), ("essential", .bool true)])], some (.obj [("grant_types", .obj [("default", .arr []), ("superset_of", .arr [.str "authorization_code", .str "refresh_token"]), ("essential", .bool true)])]), .obj [("grant_types", .arr [.str "password"])], .obj [], true⟩,
  ⟨1217, .obj [("grant_types", .obj [("default", .arr [])])], .obj [("grant_types", .obj [("superset_of", .arr [.str "authorization_code", .str "refresh_token"])])], some (.obj [("grant_types", .obj [("default", .arr []), ("superset_of", .arr [.str "authorization_code", .str "refresh_token"])])]), .obj [("grant_types", .arr [.str "password"])], .obj [], true⟩,
  ⟨1218, .obj [("grant_types", .obj [("default", .arr []), ("essential", .bool true)])], .obj [("grant_types", .obj [("superset_of", .arr [.str "authorization_code", .str "refresh_token"]), ("essential", .bool true)])], some (.obj [("grant_types", .obj [("default", .arr []), ("superset_of", .arr [.str "authorization_code", .str "refresh_token"]), ("essential", .bool true)])]), .obj [("grant_types", .arr [.str "authorization_code", .str "refresh_token"])], .obj [("grant_types", .arr [.str "authorization_code", .str "refresh_token"])], false⟩,
  ⟨1219, .obj [("grant_types", .obj [("default", .arr []), ("essential", .bool true)])], .obj [("grant_types", .obj [("superset_of", .arr [.str "authorization_code", .str "refresh_token"])])], some (.obj [("grant_types", .obj [("default", .arr []), ("superset_of", .arr [.str "authorization_code", .str "refresh_token"]), ("essential", .bool true)])]), .obj [("grant_types", .arr [.str "authorization_code", .str "refresh_token"])], .obj [("grant_types", .arr [.str "authorization_code", .str "refresh_token"])], false⟩,
  ⟨1220, .obj [("grant_types", .obj [("default", .arr [])])], .obj [("grant_types", .obj [("superset_of", .arr [.str "authorization_code", .str "refresh_token"]), ("essential", .bool true)])], some (.obj [("grant_types", .obj [("default", .arr []), ("superset_of", .arr [.str "authorization_code", .str "refresh_token"]), ("essential", .bool true)])]), .obj [("grant_types", .arr [.str "authorization_code", .str "refresh_token"])], .obj [("grant_types", .arr [.str "authorization_code", .str "refresh_token"])], false⟩,
  ⟨1221, .obj [("grant_types", .obj [("default", .arr [])])], .obj [("grant_types", .obj [("superset_of", .arr [.str "authorization_code", .str "refresh_token"])])], some (.obj [("grant_types", .obj [("default", .arr []), ("superset_of", .arr [.str "authorization_code", .str "refresh_token"])])]), .obj [("grant_types", .arr [.str "authorization_code", .str "refresh_token"])], .obj [("grant_types", .arr [.str "authorization_code", .str "refresh_token"])], false⟩,
  ⟨1222, .obj [("grant_types", .obj [("default", .arr []), ("essential", .bool true)])], .obj [("grant_types", .obj [("superset_of", .arr [.str "authorization_code", .str "refresh_token"]), ("essential", .bool true)])], some (.obj [("grant_types", .obj [("default", .arr []), ("superset_of", .arr [.str "authorization_code", .str "refresh_token"]), ("essential", .bool true)])]), .obj [("grant_types", .arr [.str "authorization_code", .str "password"])], .obj [], true⟩,
  ⟨1223, .obj [("grant_types", .obj [("default", .arr []), ("essential", .bool true)])], .obj [("grant_types", .obj [("superset_of", .arr [.str "authorization_code", .str "refresh_token"])])], some (.obj [("grant_types", .obj [("default", .arr []), ("superset_of", .arr [.str "authorization_code", .str "refresh_token"]), ("essential", .bool true)])]), .obj [("grant_types", .arr [.str "authorization_code", .str "password"])], .obj [], true⟩,
  ⟨1224, .obj [("grant_types", .obj [("default", .arr [])])], .obj [("grant_types", .obj [("superset_of", .arr [.str "authorization_code", .str "refresh_token"]), ("essential", .bool true)])], some (.obj [("grant_types", .obj [("default", .arr []), ("superset_of", .arr [.str "authorization_code", .str "refresh_token"]), ("essential", .bool true)])]), .obj [("grant_types", .arr [.str "authorization_code", .str "password"])], .obj [], true⟩,
  ⟨1225, .obj [("grant_types", .obj [("default", .arr [])])], .obj [("grant_types", .obj [("superset_of", .arr [.str "authorization_code", .str "refresh_token"])])], some (.obj [("grant_types", .obj [("default", .arr []), ("superset_of", .arr [.str "authorization_code", .str "refresh_token"])])]), .obj [("grant_types", .arr [.str "authorization_code", .str "password"])], .obj [], true⟩,
  ⟨1226, .obj [("grant_types", .obj [("default", .arr []), ("essential", .bool true)])], .obj [("grant_types", .obj [("superset_of", .arr [.str "authorization_code", .str "refresh_token"]), ("essential", .bool true)])], some (.obj [("grant_types", .obj [("default", .arr []), ("superset_of", .arr [.str "authorization_code", .str "refresh_token"]), ("essential", .bool true)])]), .obj [("grant_types", .arr [])], .obj [], true⟩,
  ⟨1227, .obj [("grant_types", .obj [("default", .arr []), ("essential", .bool true)])], .obj [("grant_types", .obj [("superset_of", .arr [.str "authorization_code", .str "refresh_token"])])], some (.obj [("grant_types", .obj [("default", .arr []), ("superset_of", .arr [.str "authorization_code", .str "refresh_token"]), ("essential", .bool true)])]), .obj [("grant_types", .arr [])], .obj [], true⟩,
  ⟨1228, .obj [("grant_types", .obj [("default", .arr [])])], .obj [("grant_types", .obj [("superset_of", .arr [.str "authorization_code", .str "refresh_token"]), ("essential", .bool true)])], some (.obj [("grant_types", .obj [("default", .arr []), ("superset_of", .arr [.str "authorization_code", .str "refresh_token"]), ("essential", .bool true)])]), .obj [("grant_types", .arr [])], .obj [], true⟩,
  ⟨1229, .obj [("grant_types", .obj [("default", .arr [])])], .obj [("grant_types", .obj [("superset_of", .arr [.str "authorization_code", .str "refresh_token"])])], some (.obj [("grant_types", .obj [("default", .arr []), ("superset_of", .arr [.str "authorization_code", .str "refresh_token"])])]), .obj [("grant_types", .arr [])], .obj [], true⟩,
  ⟨1230, .obj [("grant_types", .obj [("default", .arr []), ("essential", .bool true)])], .obj [("grant_types", .obj [("superset_of", .arr [.str "authorization_code", .str "refresh_token"]), ("essential", .bool true)])], some (.obj [("grant_types", .obj [("default", .arr []), ("superset_of", .arr [.str "authorization_code", .str "refresh_token"]), ("essential", .bool true)])]), .obj [], .obj [], true⟩,
  ⟨1231, .obj [("grant_types", .obj [("default", .arr []), ("essential", .bool true)])], .obj [("grant_types", .obj [("superset_of", .arr [.str "authorization_code", .str "refresh_token"])])], some (.obj [("grant_types", .obj [("default", .arr []), ("superset_of", .arr [.str "authorization_code", .str "refresh_token"]), ("essential", .bool true)])]), .obj [], .obj [], true⟩,
  ⟨1232, .obj [("grant_types", .obj [("default", .arr [])])], .obj [("grant_types", .obj [("superset_of", .arr [.str "authorization_code", .str "refresh_token"]), ("essential", .bool true)])], some (.obj [("grant_types", .obj [("default", .arr []), ("superset_of", .arr [.str "authorization_code", .str "refresh_token"]), ("essential", .bool true)])]), .obj [], .obj [], true⟩,
  ⟨1233, .obj [("grant_types", .obj [("default", .arr [])])], .obj [("grant_types", .obj [("superset_of", .arr [.str "authorization_code", .str "refresh_token"])])], some (.obj [("grant_types", .obj [("default", .arr []), ("superset_of", .arr [.str "authorization_code", .str "refresh_token"])])]), .obj [], .obj [], true⟩,
  ⟨1234, .obj [("grant_types", .obj [("default", .arr [.str "authorization_code"]), ("essential", .bool true)])], .obj [("grant_types", .obj [("superset_of", .arr [.str "authorization_code", .str "refresh_token"]), ("essential", .bool true)])], some (.obj [("grant_types", .obj [("default", .arr [.str "authorization_code"]), ("superset_of", .arr [.str "authorization_code", .str "refresh_token"]), ("essential", .bool true)])]), .obj [("grant_types", .arr [.str "authorization_code"])], .obj [], true⟩,
  ⟨1235, .obj [("grant_types", .obj [("default", .arr [.str "authorization_code"]), ("essential", .bool true)])], .obj [("grant_types", .obj [("superset_of", .arr [.str "authorization_code", .str "refresh_token"])])], some (.obj [("grant_types", .obj [("default", .arr [.str "authorization_code"]), ("superset_of", .arr [.str "authorization_code", .str "refresh_token"]), ("essential", .bool true)])]), .obj [("grant_types", .arr [.str "authorization_code"])], .obj [], true⟩,
  ⟨1236, .obj [("grant_types", .obj [("default", .arr [.str "authorization_code"])])], .obj [("grant_types", .obj [("superset_of", .arr [.str "authorization_code", .str "refresh_token"]), ("essential", .bool true)])], some (.obj [("grant_types", .obj [("default", .arr [.str "authorization_code"]), ("superset_of", .arr [.str "authorization_code", .str "refresh_token"]), ("essential", .bool true)])]), .obj [("grant_types", .arr [.str "authorization_code"])], .obj [], true⟩,
  ⟨1237, .obj [("grant_types", .obj [("default", .arr [.str "authorization_code"])])], .obj [("grant_types", .obj [("superset_of", .arr [.str "authorization_code", .str "refresh_token"])])], some (.obj [("grant_types", .obj [("default", .arr [.str "authorization_code"]), ("superset_of", .arr [.str "authorization_code", .str "refresh_token"])])]), .obj [("grant_types", .arr [.str "authorization_code"])], .obj [], true⟩,
  ⟨1238, .obj [("grant_types", .obj [("default", .arr [.str "authorization_code"]), ("essential", .bool true)])], .obj [("grant_types", .obj [("superset_of", .arr [.str "authorization_code", .str "refresh_token"]), ("essential", .bool true)])], some (.obj [("grant_types", .obj [("default", .arr [.str "authorization_code"]), ("superset_of", .arr [.str "authorization_code", .str "refresh_token"]), ("essential", .bool true)])]), .obj [("grant_types", .arr [.str "password"])], .obj [], true⟩,
  ⟨1239, .obj [("grant_types", .obj [("default", .arr [.str "authorization_code"]), ("essential", .bool true)])], .obj [("grant_types", .obj [("superset_of", .arr [.str "authorization_code", .str "refresh_token"])])], some (.obj [("grant_types", .obj [("default", .arr [.str "authorization_code"]), ("superset_of", .arr [.str "authorization_code", .str "refresh_token"]), ("essential", .bool true)])]), .obj [("grant_types", .arr [.str "password"])], .obj [], true⟩,
  ⟨1240, .obj [("grant_types", .obj [("default", .arr [.str "authorization_code"])])], .obj [("grant_types", .obj [("superset_of", .arr [.str "authorization_code", .str "refresh_token"]), ("essential", .bool true)])], some (.obj [("grant_types", .obj [("default", .arr [.str "authorization_code"]), ("superset_of", .arr [.str "authorization_code", .str "refresh_token"]), ("essential", .bool true)])]), .obj [("grant_types", .arr [.str "password"])], .obj [], true⟩,
  ⟨1241, .obj [("grant_types", .obj [("default", .arr [.str "authorization_code"])])], .obj [("grant_types", .obj [("superset_of", .arr [.str "authorization_code", .str "refresh_token"])])], some (.obj [("grant_types", .obj [("default", .arr [.str "authorization_code"]), ("superset_of", .arr [.str "authorization_code", .str "refresh_token"])])]), .obj [("grant_types", .arr [.str "password"])], .obj [], true⟩,
  ⟨1242, .obj [("grant_types", .obj [("default", .arr [.str "authorization_code"]), ("essential", .bool true)])], .obj [("grant_types", .obj [("superset_of", .arr [.str "authorization_code", .str "refresh_token"]), ("essential", .bool true)])], some (.obj [("grant_types", .obj [("default", .arr [.str "authorization_code"]), ("superset_of", .arr [.str "authorization_code", .str "refresh_token"]), ("essential", .bool true)])]), .obj [("grant_types", .arr [.str "authorization_code", .str "refresh_token"])], .obj [("grant_types", .arr [.str "authorization_code", .str "refresh_token"])], false⟩,
  ⟨1243, .obj [("grant_types", .obj [("default", .arr [.str "authorization_code"]), ("essential", .bool true)])], .obj [("grant_types", .obj [("superset_of", .arr [.str "authorization_code", .str "refresh_token"])])], some (.obj [("grant_types", .obj [("default", .arr [.str "authorization_code"]), ("superset_of", .arr [.str "authorization_code", .str "refresh_token"]), ("essential", .bool true)])]), .obj [("grant_types", .arr [.str "authorization_code", .str "refresh_token"])], .obj [("grant_types", .arr [.str "authorization_code", .str "refresh_token"])], false⟩,
  ⟨1244, .obj [("grant_types", .obj [("default", .arr [.str "authorization_code"])])], .obj [("grant_types", .obj [("superset_of", .arr [.str "authorization_code", .str "refresh_token"]), ("essential", .bool true)])], some (.obj [("grant_types", .obj [("default", .arr [.str "authorization_code"]), ("superset_of", .arr [.str "authorization_code", .str "refresh_token"]), ("essential", .bool true)])]), .obj [("grant_types", .arr [.str "authorization_code", .str "refresh_token"])], .obj [("grant_types", .arr [.str "authorization_code", .str "refresh_token"])], false⟩,
  ⟨1245, .obj [("grant_types", .obj [("default", .arr [.str "authorization_code"])])], .obj [("grant_types", .obj [("superset_of", .arr [.str "authorization_code", .str "refresh_token"])])], some (.obj [("grant_types", .obj [("default", .arr [.str "authorization_code"]), ("superset_of", .arr [.str "authorization_code", .str "refresh_token"])])]), .obj [("grant_types", .arr [.str "authorization_code", .str "refresh_token"])], .obj [("grant_types", .arr [.str "authorization_code", .str "refresh_token"])], false⟩,
  ⟨1246, .obj [("grant_types", .obj [("default", .arr [.str "authorization_code"]), ("essential", .bool true)])], .obj [("grant_types", .obj [("superset_of", .arr [.str "authorization_code", .str "refresh_token"]), ("essential", .bool true)])], some (.obj [("grant_types", .obj [("default", .arr [.str "authorization_code"]), ("superset_of", .arr [.str "authorization_code", .str "refresh_token"]), ("essential", .bool true)])]), .obj [("grant_types", .arr [.str "authorization_code", .str "password"])], .obj [], true⟩,
  ⟨1247, .obj [("grant_types", .obj [("default", .arr [.str "authorization_code"]), ("essential", .bool true)])], .obj [("grant_types", .obj [("superset_of", .arr [.str "authorization_code", .str "refresh_token"])])], some (.obj [("grant_types", .obj [("default", .arr [.str "authorization_code"]), ("superset_of", .arr [.str "authorization_code", .str "refresh_token"]), ("essential", .bool true)])]), .obj [("grant_types", .arr [.str "authorization_code", .str "password"])], .obj [], true⟩,
  ⟨1248, .obj [("grant_types", .obj [("default", .arr [.str "authorization_code"])])], .obj [("grant_types", .obj [("superset_of", .arr [.str "authorization_code", .str "refresh_token"]), ("essential", .bool true)])], some (.obj [("grant_types", .obj [("default", .arr [.str "authorization_code"]), ("superset_of", .arr [.str "authorization_code", .str "refresh_token"]), ("essential", .bool true)])]), .obj [("grant_types", .arr [.str "authorization_code", .str "password"])], .obj [], true⟩,
  ⟨1249, .obj [("grant_types", .obj [("default", .arr [.str "authorization_code"])])], .obj [("grant_types", .obj [("superset_of", .arr [.str "authorization_code", .str "refresh_token"])])], some (.obj [("grant_types", .obj [("default", .arr [.str "authorization_code"]), ("superset_of", .arr [.str "authorization_code", .str "refresh_token"])])]), .obj [("grant_types", .arr [.str "authorization_code", .str "password"])], .obj [], true⟩,
  ⟨1250, .obj [("grant_types", .obj [("default", .arr [.str "authorization_code"]), ("essential", .bool true)])], .obj [("grant_types", .obj [("superset_of", .arr [.str "authorization_code", .str "refresh_token"]), ("essential", .bool true)])], some (.obj [("grant_types", .obj [("default", .arr [.str "authorization_code"]), ("superset_of", .arr [.str "authorization_code", .str "refresh_token"]), ("essential", .bool true)])]), .obj [("grant_types", .arr [])], .obj [], true⟩,
  ⟨1251, .obj [("grant_types", .obj [("default", .arr [.str "authorization_code"]), ("essential", .bool true)])], .obj [("grant_types", .obj [("superset_of", .arr [.str "authorization_code", .str "refresh_token"])])], some (.obj [("grant_types", .obj [("default", .arr [.str "authorization_code"]), ("superset_of", .arr [.str "authorization_code", .str "refresh_token"]), ("essential", .bool true)])]), .obj [("grant_types", .arr [])], .obj [], true⟩,
  ⟨1252, .obj [("grant_types", .obj [("default", .arr [.str "authorization_code"])])], .obj [("grant_types", .obj [("superset_of", .arr [.str "authorization_code", .str "refresh_token"]), ("essential", .bool true)])], some (.obj [("grant_types", .obj [("default", .arr [.str "authorization_code"]), ("superset_of", .arr [.str "authorization_code", .str "refresh_token"]), ("essential", .bool true)])]), .obj [("grant_types", .arr [])], .obj [], true⟩,
  ⟨1253, .obj [("grant_types", .obj [("default", .arr [.str "authorization_code"])])], .obj [("grant_types", .obj [("superset_of", .arr [.str "authorization_code", .str "refresh_token"])])], some (.obj [("grant_types", .obj [("default", .arr [.str "authorization_code"]), ("superset_of", .arr [.str "authorization_code", .str "refresh_token"])])]), .obj [("grant_types", .arr [])], .obj [], true⟩,
  ⟨1254, .obj [("grant_types", .obj [("default", .arr [.str "authorization_code"]), ("essential", .bool true)])], .obj [("grant_types", .obj [("superset_of", .arr [.str "authorization_code", .str "refresh_token"]), ("essential", .bool true)])], some (.obj [("grant_types", .obj [("default", .arr [.str "authorization_code"]), ("superset_of", .arr [.str "authorization_code", .str "refresh_token"]), ("essential", .bool true)])]), .obj [], .obj [], true⟩,
  ⟨1255, .obj [("grant_types", .obj [("default", .arr [.str "authorization_code"]), ("essential", .bool true)])], .obj [("grant_types", .obj [("superset_of", .arr [.str "authorization_code", .str "refresh_token"])])], some (.obj [("grant_types", .obj [("default", .arr [.str "authorization_code"]), ("superset_of", .arr [.str "authorization_code", .str "refresh_token"]), ("essential", .bool true)])]), .obj [], .obj [], true⟩,
  ⟨1256, .obj [("grant_types", .obj [("default", .arr [.str "authorization_code"])])], .obj [("grant_types", .obj [("superset_of", .arr [.str "authorization_code", .str "refresh_token"]), ("essential", .bool true)])], some (.obj [("grant_types", .obj [("default", .arr [.str "authorization_code"]), ("superset_of", .arr [.str "authorization_code", .str "refresh_token"]), ("essential", .bool true)])]), .obj [], .obj [], true⟩,
  ⟨1257, .obj [("grant_types", .obj [("default", .arr [.str "authorization_code"])])], .obj [("grant_types", .obj [("superset_of", .arr [.str "authorization_code", .str "refresh_token"])])], some (.obj [("grant_types", .obj [("default", .arr [.str "authorization_code"]), ("superset_of", .arr [.str "authorization_code", .str "refresh_token"])])]), .obj [], .obj [], true⟩,
  ⟨1258, .obj [("id_token_signed_response_alg", .obj [("one_of", .arr [.str "RS256", .str "ES256"]), ("essential", .bool true)])], .obj [("id_token_signed_response_alg", .obj [("value", .str "RS256"), ("essential", .bool true)])], some (.obj [("id_token_signed_response_alg", .obj [("one_of", .arr [.str "RS256", .str "ES256"]), ("value", .str "RS256"), ("essential", .bool true)])]), .obj [("id_token_signed_response_alg", .str "RS256")], .obj [("id_token_signed_response_alg", .str "RS256")], false⟩,
  ⟨1259, .obj [("id_token_signed_response_alg", .obj [("one_of", .arr [.str "RS256", .str "ES256"]), ("essential", .bool true)])], .obj [("id_token_signed_response_alg", .obj [("value", .str "RS256")])], some (.obj [("id_token_signed_response_alg", .obj [("one_of", .arr [.str "RS256", .str "ES256"]), ("value", .str "RS256"), ("essential", .bool true)])]), .obj [("id_token_signed_response_alg", .str "RS256")], .obj [("id_token_signed_response_alg", .str "RS256")], false⟩,
  ⟨1260, .obj [("id_token_signed_response_alg", .obj [("one_of", .arr [.str "RS256", .str "ES256"])])], .obj [("id_token_signed_response_alg", .obj [("value", .str "RS256"), ("essential", .bool true)])], some (.obj [("id_token_signed_response_alg", .obj [("one_of", .arr [.str "RS256", .str "ES256"]), ("value", .str "RS256"), ("essential", .bool true)])]), .obj [("id_token_signed_response_alg", .str "RS256")], .obj [("id_token_signed_response_alg", .str "RS256")], false⟩,
  ⟨1261, .obj [("id_token_signed_response_alg", .obj [("one_of", .arr [.str "RS256", .str "ES256"])])], .obj [("id_token_signed_response_alg", .obj [("value", .str "RS256")])], some (.obj [("id_token_signed_response_alg", .obj [("one_of", .arr [.str "RS256", .str "ES256"]), ("value", .str "RS256")])]), .obj [("id_token_signed_response_alg", .str "RS256")], .obj [("id_token_signed_response_alg", .str "RS256")], false⟩,
  ⟨1262, .obj [("id_token_signed_response_alg", .obj [("one_of", .arr [.str "RS256", .str "ES256"]), ("essential", .bool true)])], .obj [("id_token_signed_response_alg", .obj [("value", .str "RS256"), ("essential", .bool true)])], some (.obj [("id_token_signed_response_alg", .obj [("one_of", .arr [.str "RS256", .str "ES256"]), ("value", .str "RS256"), ("essential", .bool true)])]), .obj [("id_token_signed_response_alg", .str "EdDSA")], .obj [("id_token_signed_response_alg", .str "RS256")], false⟩,
  ⟨1263, .obj [("id_token_signed_response_alg", .obj [("one_of", .arr [.str "RS256", .str "ES256"]), ("essential", .bool true)])], .obj [("id_token_signed_response_alg", .obj [("value", .str "RS256")])], some (.obj [("id_token_signed_response_alg", .obj [("one_of", .arr [.str "RS256", .str "ES256"]), ("value", .str "RS256"), ("essential", .bool true)])]), .obj [("id_token_signed_response_alg", .str "EdDSA")], .obj [("id_token_signed_response_alg", .str "RS256")], false⟩,
  ⟨1264, .obj [("id_token_signed_response_alg", .obj [("one_of", .arr [.str "RS256", .str "ES256"])])], .obj [("id_token_signed_response_alg", .obj [("value", .str "RS256"), ("essential", .bool true)])], some (.obj [("id_token_signed_response_alg", .obj [("one_of", .arr [.str "RS256", .str "ES256"]), ("value", .str "RS256"), ("essential", .bool true)])]), .obj [("id_token_signed_response_alg", .str "EdDSA")], .obj [("id_token_signed_response_alg", .str "RS256")], false⟩,
  ⟨1265, .obj [("id_token_signed_response_alg", .obj [("one_of", .arr [.str "RS256", .str "ES256"])])], .obj [("id_token_signed_response_alg", .obj [("value", .str "RS256")])], some (.obj [("id_token_signed_response_alg", .obj [("one_of", .arr [.str "RS256", .str "ES256"]), ("value", .str "RS256")])]), .obj [("id_token_signed_response_alg", .str "EdDSA")], .obj [("id_token_signed_response_alg", .str "RS256")], false⟩,
  ⟨1266, .obj [("id_token_signed_response_alg", .obj [("one_of", .arr [.str "RS256", .str "ES256"]), ("essential", .bool true)])], .obj [("id_token_signed_response_alg", .obj [("value", .str "RS256"), ("essential", .bool true)])], some (.obj [("id_token_signed_response_alg", .obj [("one_of", .arr [.str "RS256", .str "ES256"]), ("value", .str "RS256"), ("essential", .bool true)])]), .obj [], .obj [("id_token_signed_response_alg", .str "RS256")], false⟩,
  ⟨1267, .obj [("id_token_signed_response_alg", .obj [("one_of", .arr [.str "RS256", .str "ES256"]), ("essential", .bool true)])], .obj [("id_token_signed_response_alg", .obj [("value", .str "RS256")])], some (.obj [("id_token_signed_response_alg", .obj [("one_of", .arr [.str "RS256", .str "ES256"]), ("value", .str "RS256"), ("essential", .bool true)])]), .obj [], .obj [("id_token_signed_response_alg", .str "RS256")], false⟩,
  ⟨1268, .obj [("id_token_signed_response_alg", .obj [("one_of", .arr [.str "RS256", .str "ES256"])])], .obj [("id_token_signed_response_alg", .obj [("value", .str "RS256"), ("essential", .bool true)])], some (.obj [("id_token_signed_response_alg", .obj [("one_of", .arr [.str "RS256", .str "ES256"]), ("value", .str "RS256"), ("essential", .bool true)])]), .obj [], .obj [("id_token_signed_response_alg", .str "RS256")], false⟩,
  ⟨1269, .obj [("id_token_signed_response_alg", .obj [("one_of", .arr [.str "RS256", .str "ES256"])])], .obj [("id_token_signed_response_alg", .obj [("value", .str "RS256")])], some (.obj [("id_token_signed_response_alg", .obj [("one_of", .arr [.str "RS256", .str "ES256"]), ("value", .str "RS256")])]), .obj [], .obj [("id_token_signed_response_alg", .str "RS256")], false⟩,
  ⟨1270, .obj [("id_token_signed_response_alg", .obj [("one_of", .arr [.str "RS256", .str "ES256"]), ("essential", .bool true)])], .obj [("id_token_signed_response_alg", .obj [("default", .str "RS256"), ("essential", .bool true)])], some (.obj [("id_token_signed_response_alg", .obj [("default", .str "RS256"), ("one_of", .arr [.str "RS256", .str "ES256"]), ("essential", .bool true)])]), .obj [("id_token_signed_response_alg", .str "RS256")], .obj [("id_token_signed_response_alg", .str "RS256")], false⟩,
  ⟨1271, .obj [("id_token_signed_response_alg", .obj [("one_of", .arr [.str "RS256", .str "ES256"]), ("essential", .bool true)])], .obj [("id_token_signed_response_alg", .obj [("default", .str "RS256")])], some (.obj [("id_token_signed_response_alg", .obj [("default", .str "RS256"), ("one_of", .arr [.str "RS256", .str "ES256"]), ("essential", .bool true)])]), .obj [("id_token_signed_response_alg", .str "RS256")], .obj [("id_token_signed_response_alg", .str "RS256")], false⟩,
  ⟨1272, .obj [("id_token_signed_response_alg", .obj [("one_of", .arr [.str "RS256", .str "ES256"])])], .obj [("id_token_signed_response_alg", .obj [("default", .str "RS256"), ("essential", .bool true)])], some (.obj [("id_token_signed_response_alg", .obj [("default", .str "RS256"), ("one_of", .arr [.str "RS256", .str "ES256"]), ("essential", .bool true)])]), .obj [("id_token_signed_response_alg", .str "RS256")], .obj [("id_token_signed_response_alg", .str "RS256")], false⟩,
  ⟨1273, .obj [("id_token_signed_response_alg", .obj [("one_of", .arr [.str "RS256", .str "ES256"])])], .obj [("id_token_signed_response_alg", .obj [("default", .str "RS256")])], some (.obj [("id_token_signed_response_alg", .obj [("default", .str "RS256"), ("one_of", .arr [.str "RS256", .str "ES256"])])]), .obj [("id_token_signed_response_alg", .str "RS256")], .obj [("id_token_signed_response_alg", .str "RS256")], false⟩,
  ⟨1274, .obj [("id_token_signed_response_alg", .obj [("one_of", .arr [.str "RS256", .str "ES256"]), ("essential", .bool true)])], .obj [("id_token_signed_response_alg", .obj [("default", .str "RS256"), ("essential", .bool true)])], some (.obj [("id_token_signed_response_alg", .obj [("default", .str "RS256"), ("one_of", .arr [.str "RS256", .str "ES256"]), ("essential", .bool true)])]), .obj [("id_token_signed_response_alg", .str "EdDSA")], .obj [], true⟩,
  ⟨1275, .obj [("id_token_signed_response_alg", .obj [("one_of", .arr [.str "RS256", .str "ES256"]), ("essential", .bool true)])], .obj [("id_token_signed_response_alg", .obj [("default", .str "RS256")])], some (.obj [("id_token_signed_response_alg", .obj [("default", .str "RS256"), ("one_of", .arr [.str "RS256", .str "ES256"]), ("essential", .bool true)])]), .obj [("id_token_signed_response_alg", .str "EdDSA")], .obj [], true⟩,
  ⟨1276, .obj [("id_token_signed_response_alg", .obj [("one_of", .arr [.str "RS256", .str "ES256"])])], .obj [("id_token_signed_response_alg", .obj [("default", .str "RS256"), ("essential", .bool true)])], some (.obj [("id_token_signed_response_alg", .obj [("default", .str "RS256"), ("one_of", .arr [.str "RS256", .str "ES256"]), ("essential", .bool true)])]), .obj [("id_token_signed_response_alg", .str "EdDSA")], .obj [], true⟩,
  ⟨1277, .obj [("id_token_signed_response_alg", .obj [("one_of", .arr [.str "RS256", .str "ES256"])])], .obj [("id_token_signed_response_alg", .obj [("default", .str "RS256")])], some (.obj [("id_token_signed_response_alg", .obj [("default", .str "RS256"), ("one_of", .arr [.str "RS256", .str "ES256"])])]), .obj [("id_token_signed_response_alg", .str "EdDSA")], .obj [], true⟩,
  ⟨1278, .obj [("id_token_signed_response_alg", .obj [("one_of", .arr [.str "RS256", .str "ES256"]), ("essential", .bool true)])], .obj [("id_token_signed_response_alg", .obj [("default", .str "RS256"), ("essential", .bool true)])], some (.obj [("id_token_signed_response_alg", .obj [("default", .str "RS256"), ("one_of", .arr [.str "RS256", .str "ES256"]), ("essential", .bool true)])]), .obj [], .obj [("id_token_signed_response_alg", .str "RS256")], false⟩,
  ⟨1279, .obj [("id_token_signed_response_alg", .obj [("one_of", .arr [.str "RS256", .str "ES256"]), ("essential", .bool true)])], .obj [("id_token_signed_response_alg", .obj [("default", .str "RS256")])], some (.obj [("id_token_signed_response_alg", .obj [("default", .str "RS256"), ("one_of", .arr [.str "RS256", .str "ES256"]), ("essential", .bool true)])]), .obj [], .obj [("id_token_signed_response_alg", .str "RS256")], false⟩,
  ⟨1280, .obj [("id_token_signed_response_alg", .obj [("one_of", .arr [.str "RS256", .str "ES256"])])], .obj [("id_token_signed_response_alg", .obj [("default", .str "RS256"), ("essential", .bool true)])], some (.obj [("id_token_signed_response_alg", .obj [("default", .str "RS256"), ("one_of", .arr [.str "RS256", .str "ES256"]), ("essential", .bool true)])]), .obj [], .obj [("id_token_signed_response_alg", .str "RS256")], false⟩,
  ⟨1281, .obj [("id_token_signed_response_alg", .obj [("one_of", .arr [.str "RS256", .str "ES256"])])], .obj [("id_token_signed_response_alg", .obj [("default", .str "RS256")])], some (.obj [("id_token_signed_response_alg", .obj [("default", .str "RS256"), ("one_of", .arr [.str "RS256", .str "ES256"])])]), .obj [], .obj [("id_token_signed_response_alg", .str "RS256")], false⟩,
  ⟨1282, .obj [("id_token_signed_response_alg", .obj [("one_of", .arr [.str "RS256", .str "ES256"]), ("essential", .bool true)])], .obj [("id_token_signed_response_alg", .obj [("one_of", .arr [.str "RS256", .str "ES256"]), ("essential", .bool true)])], some (.obj [("id_token_signed_response_alg", .obj [("one_of", .arr [.str "RS256", .str "ES256"]), ("essential", .bool true)])]), .obj [("id_token_signed_response_alg", .str "RS256")], .obj [("id_token_signed_response_alg", .str "RS256")], false⟩,
  ⟨1283, .obj [("id_token_signed_response_alg", .obj [("one_of", .arr [.str "RS256", .str "ES256"]), ("essential", .bool true)])], .obj [("id_token_signed_response_alg", .obj [("one_of", .arr [.str "RS256", .str "ES256"])])], some (.obj [("id_token_signed_response_alg", .obj [("one_of", .arr [.str "RS256", .str "ES256"]), ("essential", .bool true)])]), .obj [("id_token_signed_response_alg", .str "RS256")], .obj [("id_token_signed_response_alg", .str "RS256")], false⟩,
  ⟨1284, .obj [("id_token_signed_response_alg", .obj [("one_of", .arr [.str "RS256", .str "ES256"])])], .obj [("id_token_signed_response_alg", .obj [("one_of", .arr [.str "RS256", .str "ES256"]), ("essential", .bool true)])], some (.obj [("id_token_signed_response_alg", .obj [("one_of", .arr [.str "RS256", .str "ES256"]), ("essential", .bool true)])]), .obj [("id_token_signed_response_alg", .str "RS256")], .obj [("id_token_signed_response_alg", .str "RS256")], false⟩,
  ⟨1285, .obj [("id_token_signed_response_alg", .obj [("one_of", .arr [.str "RS256", .str "ES256"])])], .obj [("id_token_signed_response_alg", .obj [("one_of", .arr [.str "RS256", .str "ES256"])])], some (.obj [("id_token_signed_response_alg", .obj [("one_of", .arr [.str "RS256", .str "ES256"])])]), .obj [("id_token_signed_response_alg", .str "RS256")], .obj [("id_token_signed_response_alg", .str "RS256")], false⟩,
  ⟨1286, .obj [("id_token_signed_response_alg", .obj [("one_of", .arr [.str "RS256", .str "ES256"]), ("essential", .bool true)])], .obj [("id_token_signed_response_alg", .obj [("one_of", .arr [.str "RS256", .str "ES256"]), ("essential", .bool true)])], some (.obj [("id_token_signed_response_alg", .obj [("one_of", .arr [.str "RS256", .str "ES256"]), ("essential", .bool true)])]), .obj [("id_token_signed_response_alg", .str "EdDSA")], .obj [], true⟩,
  ⟨1287, .obj [("id_token_signed_response_alg", .obj [("one_of", .arr [.str "RS256", .str "ES256"]), ("essential", .bool true)])], .obj [("id_token_signed_response_alg", .obj [("one_of", .arr [.str "RS256", .str "ES256"])])], some (.obj [("id_token_signed_response_alg", .obj [("one_of", .arr [.str "RS256", .str "ES256"]), ("essential", .bool true)])]), .obj [("id_token_signed_response_alg", .str "EdDSA")], .obj [], true⟩,
  ⟨1288, .obj [("id_token_signed_response_alg", .obj [("one_of", .arr [.str "RS256", .str "ES256"])])], .obj [("id_token_signed_response_alg", .obj [("one_of", .arr [.str "RS256", .str "ES256"]), ("essential", .bool true)])], some (.obj [("id_token_signed_response_alg", .obj [("one_of", .arr [.str "RS256", .str "ES256"]), ("essential", .bool true)])]), .obj [("id_token_signed_response_alg", .str "EdDSA")], .obj [], true⟩,
  ⟨1289, .obj [("id_token_signed_response_alg", .obj [("one_of", .arr [.str "RS256", .str "ES256"])])], .obj [("id_token_signed_response_alg", .obj [("one_of", .arr [.str "RS256", .str "ES256"])])], some (.obj [("id_token_signed_response_alg", .obj [("one_of", .arr [.str "RS256", .str "ES256"])])]), .obj [("id_token_signed_response_alg", .str "EdDSA")], .obj [], true⟩,
  ⟨1290, .obj [("id_token_signed_response_alg", .obj [("one_of", .arr [.str "RS256", .str "ES256"]), ("essential", .bool true)])], .obj [("id_token_signed_response_alg", .obj [("one_of", .arr [.str "RS256", .str "ES256"]), ("essential", .bool true)])], some (.obj [("id_token_signed_response_alg", .obj [("one_of", .arr [.str "RS256", .str "ES256"]), ("essential", .bool true)])]), .obj [], .obj [], true⟩,
  ⟨1291, .obj [("id_token_signed_response_alg", .obj [("one_of", .arr [.str "RS256", .str "ES256"]), ("essential", .bool true)])], .obj [("id_token_signed_response_alg", .obj [("one_of", .arr [.str "RS256", .str "ES256"])])], some (.obj [("id_token_signed_response_alg", .obj [("one_of", .arr [.str "RS256", .str "ES256"]), ("essential", .bool true)])]), .obj [], .obj [], true⟩,
  ⟨1292, .obj [("id_token_signed_response_alg", .obj [("one_of", .arr [.str "RS256", .str "ES256"])])], .obj [("id_token_signed_response_alg", .obj [("one_of", .arr [.str "RS256", .str "ES256"]), ("essential", .bool true)])], some (.obj [("id_token_signed_response_alg", .obj [("one_of", .arr [.str "RS256", .str "ES256"]), ("essential", .bool true)])]), .obj [], .obj [], true⟩,
  ⟨1293, .obj [("id_token_signed_response_alg", .obj [("one_of", .arr [.str "RS256", .str "ES256"])])], .obj [("id_token_signed_response_alg", .obj [("one_of", .arr [.str "RS256", .str "ES256"])])], some (.obj [("id_token_signed_response_alg", .obj [("one_of", .arr [.str "RS256", .str "ES256"])])]), .obj [], .obj [], false⟩,
  ⟨1294, .obj [("grant_types", .obj [("subset_of", .arr []), ("essential", .bool true)])], .obj [("grant_types", .obj [("value", .arr [.str "authorization_code"]), ("essential", .bool true)])], none, .obj [("grant_types", .arr [.str "authorization_code"])], .obj [], true⟩,
  ⟨1295, .obj [("grant_types", .obj [("subset_of", .arr []), ("essential", .bool true)])], .obj [("grant_types", .obj [("value", .arr [.str "authorization_code"])])], none, .obj [("grant_types", .arr [.str "authorization_code"])], .obj [], true⟩,
  ⟨1296, .obj [("grant_types", .obj [("subset_of", .arr [])])], .obj [("grant_types", .obj [("value", .arr [.str "authorization_code"]), ("essential", .bool true)])], none, .obj [("grant_types", .arr [.str "authorization_code"])], .obj [], true⟩,
  ⟨1297, .obj [("grant_types", .obj [("subset_of", .arr [])])], .obj [("grant_types", .obj [("value", .arr [.str "authorization_code"])])], none, .obj [("grant_types", .arr [.str "authorization_code"])], .obj [], true⟩,
  ⟨1298, .obj [("grant_types", .obj [("subset_of", .arr []), ("essential", .bool true)])], .obj [("grant_types", .obj [("value", .arr [.str "authorization_code"]), ("essential", .bool true)])], none, .obj [("grant_types", .arr [.str "password"])], .obj [], true⟩,
  ⟨1299, .obj [("grant_types", .obj [("subset_of", .arr []), ("essential", .bool true)])], .obj [("grant_types", .obj [("value", .arr [.str "authorization_code"])])], none, .obj [("grant_types", .arr [.str "password"])], .obj [], true⟩,
  ⟨1300, .obj [("grant_types", .obj [("subset_of", .arr [])])], .obj [("grant_types", .obj [("value", .arr [.str "authorization_code"]), ("essential", .bool true)])], none, .obj [("grant_types", .arr [.str "password"])], .obj [], true⟩,
  ⟨1301, .obj [("grant_types", .obj [("subset_of", .arr [])])], .obj [("grant_types", .obj [("value", .arr [.str "authorization_code"])])], none, .obj [("grant_types", .arr [.str "password"])], .obj [], true⟩,
  ⟨1302, .obj [("grant_types", .obj [("subset_of", .arr []), ("essential", .bool true)])], .obj [("grant_types", .obj [("value", .arr [.str "authorization_code"]), ("essential", .bool true)])], none, .obj [("grant_types", .arr [.str "authorization_code", .str "refresh_token"])], .obj [], true⟩,
  ⟨1303, .obj [("grant_types", .obj [("subset_of", .arr []), ("essential", .bool true)])], .obj [("grant_types", .obj [("value", .arr [.str "authorization_code"])])], none, .obj [("grant_types", .arr [.str "authorization_code", .str "refresh_token"])], .obj [], true⟩,
  ⟨1304, .obj [("grant_types", .obj [("subset_of", .arr [])])], .obj [("grant_types", .obj [("value", .arr [.str "authorization_code"]), ("essential", .bool true)])], none, .obj [("grant_types", .arr [.str "authorization_code", .str "refresh_token"])], .obj [], true⟩,
  ⟨1305, .obj [("grant_types", .obj [("subset_of", .arr [])])], .obj [("grant_types", .obj [("value", .arr [.str "authorization_code"])])], none, .obj [("grant_types", .arr [.str "authorization_code", .str "refresh_token"])], .obj [], true⟩,
  ⟨1306, .obj [("grant_types", .obj [("subset_of", .arr []), ("essential", .bool true)])], .obj [("grant_types", .obj [("value", .arr [.str "authorization_code"]), ("essential", .bool true)])], none, .obj [("grant_types", .arr [.str "authorization_code", .str "password"])], .obj [], true⟩,
  ⟨1307, .obj [("grant_types", .obj [("subset_of", .arr []), ("essential", .bool true)])], .obj [("grant_types", .obj [("value", .arr [.str "authorization_code"])])], none, .obj [("grant_types", .arr [.str "authorization_code", .str "password"])], .obj [], true⟩,
  ⟨1308, .obj [("grant_types", .obj [("subset_of", .arr [])])], .obj [("grant_types", .obj [("value", .arr [.str "authorization_code"]), ("essential", .bool true)])], none, .obj [("grant_types", .arr [.str "authorization_code", .str "password"])], .obj [], true⟩,
  ⟨1309, .obj [("grant_types", .obj [("subset_of", .arr [])])], .obj [("grant_types", .obj [("value", .arr [.str "authorization_code"])])], none, .obj [("grant_types", .arr [.str "authorization_code", .str "password"])], .obj [], true⟩,
  ⟨1310, .obj [("grant_types", .obj [("subset_of", .arr []), ("essential", .bool true)])], .obj [("grant_types", .obj [("value", .arr [.str "authorization_code"]), ("essential", .bool true)])], none, .obj [("grant_types", .arr [])], .obj [], true⟩,
  ⟨1311, .obj [("grant_types", .obj [("subset_of", .arr []), ("essential", .bool true)])], .obj [("grant_types", .obj [("value", .arr [.str "authorization_code"])])], none, .obj [("grant_types", .arr [])], .obj [], true⟩,
  ⟨1312, .obj [("grant_types", .obj [("subset_of", .arr [])])], .obj [("grant_types", .obj [("value", .arr [.str "authorization_code"]), ("essential", .bool true)])], none, .obj [("grant_types", .arr [])], .obj [], true⟩,
  ⟨1313, .obj [("grant_types", .obj [("subset_of", .arr [])])], .obj [("grant_types", .obj [("value", .arr [.str "authorization_code"])])], none, .obj [("grant_types", .arr [])], .obj [], true⟩,
  ⟨1314, .obj [("grant_types", .obj [("subset_of", .arr []), ("essential", .bool true)])], .obj [("grant_types", .obj [("value", .arr [.str "authorization_code"]), ("essential", .bool true)])], none, .obj [], .obj [], true⟩,
  ⟨1315, .obj [("grant_types", .obj [("subset_of", .arr []), ("essential", .bool true)])], .obj [("grant_types", .obj [("value", .arr [.str "authorization_code"])])], none, .obj [], .obj [], true⟩,
  ⟨1316, .obj [("grant_types", .obj [("subset_of", .arr [])])], .obj [("grant_types", .obj [("value", .arr [.str "authorization_code"]), ("essential", .bool true)])], none, .obj [], .obj [], true⟩,
  ⟨1317, .obj [("grant_types", .obj [("subset_of", .arr [])])], .obj [("grant_types", .obj [("value", .arr [.str "authorization_code"])])], none, .obj [], .obj [], true⟩,
  ⟨1318, .obj [("grant_types", .obj [("subset_of", .arr []), ("essential", .bool true)])], .obj [("grant_types", .obj [("value", .arr [.str "authorization_code", .str "refresh_token"]), ("essential", .bool true)])], none, .obj [("grant_types", .arr [.str "authorization_code"])], .obj [], true⟩,
  ⟨1319, .obj [("grant_types", .obj [("subset_of", .arr []), ("essential", .bool true)])], .obj [("grant_types", .obj [("value", .arr [.str "authorization_code", .str "refresh_token"])])], none, .obj [("grant_types", .arr [.str "authorization_code"])], .obj [], true⟩,
  ⟨1320, .obj [("grant_types", .obj [("subset_of", .arr [])])], .obj [("grant_types", .obj [("value", .arr [.str "authorization_code", .str "refresh_token"]), ("essential", .bool true)])], none, .obj [("grant_types", .arr [.str "authorization_code"])], .obj [], true⟩,
  ⟨1321, .obj [("grant_types", .obj [("subset_of", .arr [])])], .obj [("grant_types", .obj [("value", .arr [.str "authorization_code", .str "refresh_token"])])], none, .obj [("grant_types", .arr [.str "authorization_code"])], .obj [], true⟩,
  ⟨1322, .obj [("grant_types", .obj [("subset_of", .arr []), ("essential", .bool true)])], .obj [("grant_types", .obj [("value", .arr [.str "authorization_code", .str "refresh_token"]), ("essential", .bool true)])], none, .obj [("grant_types", .arr [.str "password"])], .obj [], true⟩,
  ⟨1323, .obj [("grant_types", .obj [("subset_of", .arr []), ("essential", .bool true)])], .obj [("grant_types", .obj [("value", .arr [.str "authorization_code", .str "refresh_token"])])], none, .obj [("grant_types", .arr [.str "password"])], .obj [], true⟩,
  ⟨1324, .obj [("grant_types", .obj [("subset_of", .arr [])])], .obj [("grant_types", .obj [("value", .arr [.str "authorization_code", .str "refresh_token"]), ("essential", .bool true)])], none, .obj [("grant_types", .arr [.str "password"])], .obj [], true⟩,
  ⟨1325, .obj [("grant_types", .obj [("subset_of", .arr [])])], .obj [("grant_types", .obj [("value", .arr [.str "authorization_code", .str "refresh_token"])])], none, .obj [("grant_types", .arr [.str "password"])], .obj [], true⟩,
  ⟨1326, .obj [("grant_types", .obj [("subset_of", .arr []), ("essential", .bool true)])], .obj [("grant_types", .obj [("value", .arr [.str "authorization_code", .str "refresh_token"]), ("essential", .bool true)])], none, .obj [("grant_types", .arr [.str "authorization_code", .str "refresh_token"])], .obj [], true⟩,
  ⟨1327, .obj [("grant_types", .obj [("subset_of", .arr []), ("essential", .bool true)])], .obj [("grant_types", .obj [("value", .arr [.str "authorization_code", .str "refresh_token"])])], none, .obj [("grant_types", .arr [.str "authorization_code", .str "refresh_token"])], .obj [], true⟩,
  ⟨1328, .obj [("grant_types", .obj [("subset_of", .arr [])])], .obj [("grant_types", .obj [("value", .arr [.str "authorization_code", .str "refresh_token"]), ("essential", .bool true)])], none, .obj [("grant_types", .arr [.str "authorization_code", .str "refresh_token"])], .obj [], true⟩,
  ⟨1329, .obj [("grant_types", .obj [("subset_of", .arr [])])], .obj [("grant_types", .obj [("value", .arr [.str "authorization_code", .str "refresh_token"])])], none, .obj [("grant_types", .arr [.str "authorization_code", .str "refresh_token"])], .obj [], true⟩,
  ⟨1330, .obj [("grant_types", .obj [("subset_of", .arr []), ("essential", .bool true)])], .obj [("grant_types", .obj [("value", .arr [.str "authorization_code", .str "refresh_token"]), ("essential", .bool true)])], none, .obj [("grant_types", .arr [.str "authorization_code", .str "password"])], .obj [], true⟩,
  ⟨1331, .obj [("grant_types", .obj [("subset_of", .arr []), ("essential", .bool true)])], .obj [("grant_types", .obj [("value", .arr [.str "authorization_code", .str "refresh_token"])])], none, .obj [("grant_types", .arr [.str "authorization_code", .str "password"])], .obj [], true⟩,
  ⟨1332, .obj [("grant_types", .obj [("subset_of", .arr [])])], .obj [("grant_types", .obj [("value", .arr [.str "authorization_code", .str "refresh_token"]), ("essential", .bool true)])], none, .obj [("grant_types", .arr [.str "authorization_code", .str "password"])], .obj [], true⟩,
  ⟨1333, .obj [("grant_types", .obj [("subset_of", .arr [])])], .obj [("grant_types", .obj [("value", .arr [.str "authorization_code", .str "refresh_token"])])], none, .obj [("grant_types", .arr [.str "authorization_code", .str "password"])], .obj [], true⟩,
  ⟨1334, .obj [("grant_types", .obj [("subset_of", .arr []), ("essential", .bool true)])], .obj [("grant_types", .obj [("value", .arr [.str "authorization_code", .str "refresh_token"]), ("essential", .bool true)])], none, .obj [("grant_types", .arr [])], .obj [], true⟩,
  ⟨1335, .obj [("grant_types", .obj [("subset_of", .arr []), ("essential", .bool true)])], .obj [("grant_types", .obj [("value", .arr [.str "authorization_code", .str "refresh_token"])])], none, .obj [("grant_types", .arr [])], .obj [], true⟩,
  ⟨1336, .obj [("grant_types", .obj [("subset_of", .arr [])])], .obj [("grant_types", .obj [("value", .arr [.str "authorization_code", .str "refresh_token"]), ("essential", .bool true)])], none, .obj [("grant_types", .arr [])], .obj [], true⟩,
  ⟨1337, .obj [("grant_types", .obj [("subset_of", .arr [])])], .obj [("grant_types", .obj [("value", .arr [.str "authorization_code", .str "refresh_token"])])], none, .obj [("grant_types", .arr [])], .obj [], true⟩,
  ⟨1338, .obj [("grant_types", .obj [("subset_of", .arr []), ("essential", .bool true)])], .obj [("grant_types", .obj [("value", .arr [.str "authorization_code", .str "refresh_token"]), ("essential", .bool true)])], none, .obj [], .obj [], true⟩,
  ⟨1339, .obj [("grant_types", .obj [("subset_of", .arr []), ("essential", .bool true)])], .obj [("grant_types", .obj [("value", .arr [.str "authorization_code", .str "refresh_token"])])], none, .obj [], .obj [], true⟩,
  ⟨1340, .obj [("grant_types", .obj [("subset_of", .arr [])])], .obj [("grant_types", .obj [("value", .arr [.str "authorization_code", .str "refresh_token"]), ("essential", .bool true)])], none, .obj [], .obj [], true⟩,
  ⟨1341, .obj [("grant_types", .obj [("subset_of", .arr [])])], .obj [("grant_types", .obj [("value", .arr [.str "authorization_code", .str "refresh_token"])])], none, .obj [], .obj [], true⟩,
  ⟨1342, .obj [("grant_types", .obj [("subset_of", .arr [.str "authorization_code"]), ("essential", .bool true)])], .obj [("grant_types", .obj [("value", .arr [.str "authorization_code", .str "refresh_token"]), ("essential", .bool true)])], none, .obj [("grant_types", .arr [.str "authorization_code"])], .obj [], true⟩,
  ⟨1343, .obj [("grant_types", .obj [("subset_of", .arr [.str "authorization_code"]), ("essential", .bool true)])], .obj [("grant_types", .obj [("value", .arr [.str "authorization_code", .str "refresh_token"])])], none, .obj [("grant_types", .arr [.str "authorization_code"])], .obj [], true⟩,
  ⟨1344, .obj [("grant_types", .obj [("subset_of", .arr [.str "authorization_code"])])], .obj [("grant_types", .obj [("value", .arr [.str "authorization_code", .str "refresh_token"]), ("essential", .bool true)])], none, .obj [("grant_types", .arr [.str "authorization_code"])], .obj [], true⟩,
  ⟨1345, .obj [("grant_types", .obj [("subset_of", .arr [.str "authorization_code"])])], .obj [("grant_types", .obj [("value", .arr [.str "authorization_code", .str "refresh_token"])])], none, .obj [("grant_types", .arr [.str "authorization_code"])], .obj [], true⟩,
  ⟨1346, .obj [("grant_types", .obj [("subset_of", .arr [.str "authorization_code"]), ("essential", .bool true)])], .obj [("grant_types", .obj [("value", .arr [.str "authorization_code", .str "refresh_token"]), ("essential", .bool true)])], none, .obj [("grant_types", .arr [.str "password"])], .obj [], true⟩,
  ⟨1347, .obj [("grant_types", .obj [("subset_of", .arr [.str "authorization_code"]), ("essential", .bool true)])], .obj [("grant_types", .obj [("value", .arr [.str "authorization_code", .str "refresh_token"])])], none, .obj [("grant_types", .arr [.str "password"])], .obj [], true⟩,
  ⟨1348, .obj [("grant_types", .obj [("subset_of", .arr [.str "authorization_code"])])], .obj [("grant_types", .obj [("value", .arr [.str "authorization_code", .str "refresh_token"]), ("essential", .bool true)])], none, .obj [("grant_types", .arr [.str "password"])], .obj [], true⟩,
  ⟨1349, .obj [("grant_types", .obj [("subset_of", .arr [.str "authorization_code"])])], .obj [("grant_types", .obj [("value", .arr [.str "authorization_code", .str "refresh_token"])])], none, .obj [("grant_types", .arr [.str "password"])], .obj [], true⟩,
  ⟨1350, .obj [("grant_types", .obj [("subset_of", .arr [.str "authorization_code"]), ("essential", .bool true)])], .obj [("grant_types", .obj [("value", .arr [.str "authorization_code", .str "refresh_token"]), ("essential", .bool true)])], none, .obj [("grant_types", .arr [.str "authorization_code", .str "refresh_token"])], .obj [], true⟩,
  ⟨1351, .obj [("grant_types", .obj [("subset_of", .arr [.str "authorization_code"]), ("essential", .bool true)])], .obj [("grant_types", .obj [("value", .arr [.str "authorization_code", .str "refresh_token"])])], none, .obj [("grant_types", .arr [.str "authorization_code", .str "refresh_token"])], .obj [], true⟩,
  ⟨1352, .obj [("grant_types", .obj [("subset_of", .arr [.str "authorization_code"])])], .obj [("grant_types", .obj [("value", .arr [.str "authorization_code", .str "refresh_token"]), ("essential", .bool true)])], none, .obj [("grant_types", .arr [.str "authorization_code", .str "refresh_token"])], .obj [], true⟩,
  ⟨1353, .obj [("grant_types", .obj [("subset_of", .arr [.str "authorization_code"])])], .obj [("grant_types", .obj [("value", .arr [.str "authorization_code", .str "refresh_token"])])], none, .obj [("grant_types", .arr [.str "authorization_code", .str "refresh_token"])], .obj [], true⟩,
  ⟨1354, .obj [("grant_types", .obj [("subset_of", .arr [.str "authorization_code"]), ("essential", .bool true)])], .obj [("grant_types", .obj [("value", .arr [.str "authorization_code", .str "refresh_token"]), ("essential", .bool true)])], none, .obj [("grant_types", .arr [.str "authorization_code", .str "password"])], .obj [], true⟩,
  ⟨1355, .obj [("grant_types", .obj [("subset_of", .arr [.str "authorization_code"]), ("essential", .bool true)])], .obj [("grant_types", .obj [("value", .arr [.str "authorization_code", .str "refresh_token"])])], none, .obj [("grant_types", .arr [.str "authorization_code", .str "password"])], .obj [], true⟩,
  ⟨1356, .obj [("grant_types", .obj [("subset_of", .arr [.str "authorization_code"])])], .obj [("grant_types", .obj [("value", .arr [.str "authorization_code", .str "refresh_token"]), ("essential", .bool true)])], none, .obj [("grant_types", .arr [.str "authorization_code", .str "password"])], .obj [], true⟩,
  ⟨1357, .obj [("grant_types", .obj [("subset_of", .arr [.str "authorization_code"])])], .obj [("grant_types", .obj [("value", .arr [.str "authorization_code", .str "refresh_token"])])], none, .obj [("grant_types", .arr [.str "authorization_code", .str "password"])], .obj [], true⟩,
  ⟨1358, .obj [("grant_types", .obj [("subset_of", .arr [.str "authorization_code"]), ("essential", .bool true)])], .obj [("grant_types", .obj [("value", .arr [.str "authorization_code", .str "refresh_token"]), ("essential", .bool true)])], none, .obj [("grant_types", .arr [])], .obj [], true⟩,
  ⟨1359, .obj [("grant_types", .obj [("subset_of", .arr [.str "authorization_code"]), ("essential", .bool true)])], .obj [("grant_types", .obj [("value", .arr [.str "authorization_code", .str "refresh_token"])])], none, .obj [("grant_types", .arr [])], .obj [], true⟩,
  ⟨1360, .obj [("grant_types", .obj [("subset_of", .arr [.str "authorization_code"])])], .obj [("grant_types", .obj [("value", .arr [.str "authorization_code", .str "refresh_token"]), ("essential", .bool true)])], none, .obj [("grant_types", .arr [])], .obj [], true⟩,
  ⟨1361, .obj [("grant_types", .obj [("subset_of", .arr [.str "authorization_code"])])], .obj [("grant_types", .obj [("value", .arr [.str "authorization_code", .str "refresh_token"])])], none, .obj [("grant_types", .arr [])], .obj [], true⟩,
  ⟨1362, .obj [("grant_types", .obj [("subset_of", .arr [.str "authorization_code"]), ("essential", .bool true)])], .obj [("grant_types", .obj [("value", .arr [.str "authorization_code", .str "refresh_token"]), ("essential", .bool true)])], none, .obj [], .obj [], true⟩,
  ⟨1363, .obj [("grant_types", .obj [("subset_of", .arr [.str "authorization_code"]), ("essential", .bool true)])], .obj [("grant_types", .obj [("value", .arr [.str "authorization_code", .str "refresh_token"])])], none, .obj [], .obj [], true⟩,
  ⟨1364, .obj [("grant_types", .obj [("subset_of", .arr [.str "authorization_code"])])], .obj [("grant_types", .obj [("value", .arr [.str "authorization_code", .str "refresh_token"]), ("essential", .bool true)])], none, .obj [], .obj [], true⟩,
  ⟨1365, .obj [("grant_types", .obj [("subset_of", .arr [.str "authorization_code"])])], .obj [("grant_types", .obj [("value", .arr [.str "authorization_code", .str "refresh_token"])])], none, .obj [], .obj [], true⟩,
  ⟨1366, .obj [("grant_types", .obj [("subset_of", .arr []), ("essential", .bool true)])], .obj [("grant_types", .obj [("add", .arr [.str "authorization_code"]), ("essential", .bool true)])], none, .obj [("grant_types", .arr [.str "authorization_code"])], .obj [], true⟩,
  ⟨1367, .obj [("grant_types", .obj [("subset_of", .arr []), ("essential", .bool true)])], .obj [("grant_types", .obj [("add", .arr [.str "authorization_code"])])], none, .obj [("grant_types", .arr [.str "authorization_code"])], .obj [], true⟩,
  ⟨1368, .obj [("grant_types", .obj [("subset_of", .arr [])])], .obj [("grant_types", .obj [("add", .arr [.str "authorization_code"]), ("essential", .bool true)])], none, .obj [("grant_types", .arr [.str "authorization_code"])], .obj [], true⟩,
  ⟨1369, .obj [("grant_types", .obj [("subset_of", .arr [])])], .obj [("grant_types", .obj [("add", .arr [.str "authorization_code"])])], none, .obj [("grant_types", .arr [.str "authorization_code"])], .obj [], true⟩,
  ⟨1370, .obj [("grant_types", .obj [("subset_of", .arr []), ("essential", .bool true)])], .obj [("grant_types", .obj [("add", .arr [.str "authorization_code"]), ("essential", .bool true)])], none, .obj [("grant_types", .arr [.str "password"])], .obj [], true⟩,
  ⟨1371, .obj [("grant_types", .obj [("subset_of", .arr []), ("essential", .bool true)])], .obj [("grant_types", .obj [("add", .arr [.str "authorization_code"])])], none, .obj [("grant_types", .arr [.str "password"])], .obj [], true⟩,
  ⟨1372, .obj [("grant_types", .obj [("subset_of", .arr [])])], .obj [("grant_types", .obj [("add", .arr [.str "authorization_code"]), ("essential", .bool true)])], none, .obj [("grant_types", .arr [.str "password"])], .obj [], true⟩,
  ⟨1373, .obj [("grant_types", .obj [("subset_of", .arr [])])], .obj [("grant_types", .obj [("add", .arr [.str "authorization_code"])])], none, .obj [("grant_types", .arr [.str "password"])], .obj [], true⟩,
  ⟨1374, .obj [("grant_types", .obj [("subset_of", .arr []), ("essential", .bool true)])], .obj [("grant_types", .obj [("add", .arr [.str "authorization_code"]), ("essential", .bool true)])], none, .obj [("grant_types", .arr [.str "authorization_code", .str "refresh_token"])], .obj [], true⟩,
  ⟨1375, .obj [("grant_types", .obj [("subset_of", .arr []), ("essential", .bool true)])], .obj [("grant_types", .obj [("add", .arr [.str "authorization_code"])])], none, .obj [("grant_types", .arr [.str "authorization_code", .str "refresh_token"])], .obj [], true⟩,
  ⟨1376, .obj [("grant_types", .obj [("subset_of", .arr [])])], .obj [("grant_types", .obj [("add", .arr [.str "authorization_code"]), ("essential", .bool true)])], none, .obj [("grant_types", .arr [.str "authorization_code", .str "refresh_token"])], .obj [], true⟩,
  ⟨1377, .obj [("grant_types", .obj [("subset_of", .arr [])])], .obj [("grant_types", .obj [("add", .arr [.str "authorization_code"])])], none, .obj [("grant_types", .arr [.str "authorization_code", .str "refresh_token"])], .obj [], true⟩,
  ⟨1378, .obj [("grant_types", .obj [("subset_of", .arr []), ("essential", .bool true)])], .obj [("grant_types", .obj [("add", .arr [.str "authorization_code"]), ("essential", .bool true)])], none, .obj [("grant_types", .arr [.str "authorization_code", .str "password"])], .obj [], true⟩,
  ⟨1379, .obj [("grant_types", .obj [("subset_of", .arr []), ("essential", .bool true)])], .obj [("grant_types", .obj [("add", .arr [.str "authorization_code"])])], none, .obj [("grant_types", .arr [.str "authorization_code", .str "password"])], .obj [], true⟩,
  ⟨1380, .obj [("grant_types", .obj [("subset_of", .arr [])])], .obj [("grant_types", .obj [("add", .arr [.str "authorization_code"]), ("essential", .bool true)])], none, .obj [("grant_types", .arr [.str "authorization_code", .str "password"])], .obj [], true⟩,
  ⟨1381, .obj [("grant_types", .obj [("subset_of", .arr [])])], .obj [("grant_types", .obj [("add", .arr [.str "authorization_code"])])], none, .obj [("grant_types", .arr [.str "authorization_code", .str "password"])], .obj [], true⟩,
  ⟨1382, .obj [("grant_types", .obj [("subset_of", .arr []), ("essential", .bool true)])], .obj [("grant_types", .obj [("add", .arr [.str "authorization_code"]), ("essential", .bool true)])], none, .obj [("grant_types", .arr [])], .obj [], true⟩,
  ⟨1383, .obj [("grant_types", .obj [("subset_of", .arr []), ("essential", .bool true)])], .obj [("grant_types", .obj [("add", .arr [.str "authorization_code"])])], none, .obj [("grant_types", .arr [])], .obj [], true⟩,
  ⟨1384, .obj [("grant_types", .obj [("subset_of", .arr [])])], .obj [("grant_types", .obj [("add", .arr [.str "authorization_code"]), ("essential", .bool true)])], none, .obj [("grant_types", .arr [])], .obj [], true⟩,
  ⟨1385, .obj [("grant_types", .obj [("subset_of", .arr [])])], .obj [("grant_types", .obj [("add", .arr [.str "authorization_code"])])], none, .obj [("grant_types", .arr [])], .obj [], true⟩,
  ⟨1386, .obj [("grant_types", .obj [("subset_of", .arr []), ("essential", .bool true)])], .obj [("grant_types", .obj [("add", .arr [.str "authorization_code"]), ("essential", .bool true)])], none, .obj [], .obj [], true⟩,
  ⟨1387, .obj [("grant_types", .obj [("subset_of", .arr []), ("essential", .bool true)])], .obj [("grant_types", .obj [("add", .arr [.str "authorization_code"])])], none, .obj [], .obj [], true⟩,
  ⟨1388, .obj [("grant_types", .obj [("subset_of", .arr [])])], .obj [("grant_types", .obj [("add", .arr [.str "authorization_code"]), ("essential", .bool true)])], none, .obj [], .obj [], true⟩,
  ⟨1389, .obj [("grant_types", .obj [("subset_of", .arr [])])], .obj [("grant_types", .obj [("add", .arr [.str "authorization_code"])])], none, .obj [], .obj [], true⟩,
  ⟨1390, .obj [("grant_types", .obj [("subset_of", .arr []), ("essential", .bool true)])], .obj [("grant_types", .obj [("add", .arr [.str "authorization_code", .str "refresh_token"]), ("essential", .bool true)])], none, .obj [("grant_types", .arr [.str "authorization_code"])], .obj [], true⟩,
  ⟨1391, .obj [("grant_types", .obj [("subset_of", .arr []), ("essential", .bool true)])], .obj [("grant_types", .obj [("add", .arr [.str "authorization_code", .str "refresh_token"])])], none, .obj [("grant_types", .arr [.str "authorization_code"])], .obj [], true⟩,
  ⟨1392, .obj [("grant_types", .obj [("subset_of", .arr [])])], .obj [("grant_types", .obj [("add", .arr [.str "authorization_code", .str "refresh_token"]), ("essential", .bool true)])], none, .obj [("grant_types", .arr [.str "authorization_code"])], .obj [], true⟩,
  ⟨1393, .obj [("grant_types", .obj [("subset_of", .arr [])])], .obj [("grant_types", .obj [("add", .arr [.str "authorization_code", .str "refresh_token"])])], none, .obj [("grant_types", .arr [.str "authorization_code"])], .obj [], true⟩,
  ⟨1394, .obj [("grant_types", .obj [("subset_of", .arr []), ("essential", .bool true)])], .obj [("grant_types", .obj [("add", .arr [.str "authorization_code", .str "refresh_token"]), ("essential", .bool true)])], none, .obj [("grant_types", .arr [.str "password"])], .obj [], true⟩,
  ⟨1395, .obj [("grant_types", .obj [("subset_of", .arr []), ("essential", .bool true)])], .obj [("grant_types", .obj [("add", .arr [.str "authorization_code", .str "refresh_token"])])], none, .obj [("grant_types", .arr [.str "password"])], .obj [], true⟩,
  ⟨1396, .obj [("grant_types", .obj [("subset_of", .arr [])])], .obj [("grant_types", .obj [("add", .arr [.str "authorization_code", .str "refresh_token"]), ("essential", .bool true)])], none, .obj [("grant_types", .arr [.str "password"])], .obj [], true⟩,
  ⟨1397, .obj [("grant_types", .obj [("subset_of", .arr [])])], .obj [("grant_types", .obj [("add", .arr [.str "authorization_code", .str "refresh_token"])])], none, .obj [("grant_types", .arr [.str "password"])], .obj [], true⟩,
  ⟨1398, .obj [("grant_types", .obj [("subset_of", .arr []), ("essential", .bool true)])], .obj [("grant_types", .obj [("add", .arr [.str "authorization_code", .str "refresh_token"]), ("essential", .bool true)])], none, .obj [("grant_types", .arr [.str "authorization_code", .str "refresh_token"])], .obj [], true⟩,
  ⟨1399, .obj [("grant_types", .obj [("subset_of", .arr []), ("essential", .bool true)])], .obj [("grant_types", .obj [("add", .arr [.str "authorization_code", .str "refresh_token"])])], none, .obj [("grant_types", .arr [.str "authorization_code", .str "refresh_token"])], .obj [], true⟩,
  ⟨1400, .obj [("grant_types", .obj [("subset_of", .arr [])])], .obj [("grant_types", .obj [("add", .arr [.str "authorization_code", .str "refresh_token"]), ("essential", .bool true)])], none, .obj [("grant_types", .arr [.str "authorization_code", .str "refresh_token"])], .obj [], true⟩]

set_option maxRecDepth 100000 in
example : vectors2.all (fun v => v.applyMerged && v.mergeAndApply) = true := by decide +kernel

end Oidfed.Validation
