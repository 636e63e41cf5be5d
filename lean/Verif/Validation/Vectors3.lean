import Verif.Validation.Vectors
/-!
# Metadata policy test vectors 1401 to 2019

Generated by `validation/gen_vectors.py`.
-/

namespace Oidfed.Validation
open Oidfed

/-- The vectors. -/
def vectors3 : List TestVector := [
  ⟨1401, .obj [("grant_types", .obj [("subset_of", .arr [])])], .obj [("grant_types", .obj [("add", .arr [.str "authorization_code", .str "refresh_token"])])], none, .obj [("grant_types", .arr [.str "authorization_code", .str "refresh_token"])], .obj [], true⟩,
  ⟨1402, .obj [("grant_types", .obj [("subset_of", .arr []), ("essential", .bool true)])], .obj [("grant_types", .obj [("add", .arr [.str "authorization_code", .str "refresh_token"]), ("essential", .bool true)])], none, .obj [("grant_types", .arr [.str "authorization_code", .str "password"])], .obj [], true⟩,
  ⟨1403, .obj [("grant_types", .obj [("subset_of", .arr []), ("essential", .bool true)])], .obj [("grant_types", .obj [("add", .arr [.str "authorization_code", .str "refresh_token"])])], none, .obj [("grant_types", .arr [.str "authorization_code", .str "password"])], .obj [], true⟩,
  ⟨1404, .obj [("grant_types", .obj [("subset_of", .arr [])])], .obj [("grant_types", .obj [("add", .arr [.str "authorization_code", .str "refresh_token"]), ("essential", .bool true)])], none, .obj [("grant_types", .arr [.str "authorization_code", .str "password"])], .obj [], true⟩,
  ⟨1405, .obj [("grant_types", .obj [("subset_of", .arr [])])], .obj [("grant_types", .obj [("add", .arr [.str "authorization_code", .str "refresh_token"])])], none, .obj [("grant_types", .arr [.str "authorization_code", .str "password"])], .obj [], true⟩,
  ⟨1406, .obj [("grant_types", .obj [("subset_of", .arr []), ("essential", .bool true)])], .obj [("grant_types", .obj [("add", .arr [.str "authorization_code", .str "refresh_token"]), ("essential", .bool true)])], none, .obj [("grant_types", .arr [])], .obj [], true⟩,
  ⟨1407, .obj [("grant_types", .obj [("subset_of", .arr []), ("essential", .bool true)])], .obj [("grant_types", .obj [("add", .arr [.str "authorization_code", .str "refresh_token"])])], none, .obj [("grant_types", .arr [])], .obj [], true⟩,
  ⟨1408, .obj [("grant_types", .obj [("subset_of", .arr [])])], .obj [("grant_types", .obj [("add", .arr [.str "authorization_code", .str "refresh_token"]), ("essential", .bool true)])], none, .obj [("grant_types", .arr [])], .obj [], true⟩,
  ⟨1409, .obj [("grant_types", .obj [("subset_of", .arr [])])], .obj [("grant_types", .obj [("add", .arr [.str "authorization_code", .str "refresh_token"])])], none, .obj [("grant_types", .arr [])], .obj [], true⟩,
  ⟨1410, .obj [("grant_types", .obj [("subset_of", .arr []), ("essential", .bool true)])], .obj [("grant_types", .obj [("add", .arr [.str "authorization_code", .str "refresh_token"]), ("essential", .bool true)])], none, .obj [], .obj [], true⟩,
  ⟨1411, .obj [("grant_types", .obj [("subset_of", .arr []), ("essential", .bool true)])], .obj [("grant_types", .obj [("add", .arr [.str "authorization_code", .str "refresh_token"])])], none, .obj [], .obj [], true⟩,
  ⟨1412, .obj [("grant_types", .obj [("subset_of", .arr [])])], .obj [("grant_types", .obj [("add", .arr [.str "authorization_code", .str "refresh_token"]), ("essential", .bool true)])], none, .obj [], .obj [], true⟩,
  ⟨1413, .obj [("grant_types", .obj [("subset_of", .arr [])])], .obj [("grant_types", .obj [("add", .arr [.str "authorization_code", .str "refresh_token"])])], none, .obj [], .obj [], true⟩,
  ⟨1414, .obj [("grant_types", .obj [("subset_of", .arr [.str "authorization_code"]), ("essential", .bool true)])], .obj [("grant_types", .obj [("add", .arr [.str "authorization_code", .str "refresh_token"]), ("essential", .bool true)])], none, .obj [("grant_types", .arr [.str "authorization_code"])], .obj [], true⟩,
  ⟨1415, .obj [("grant_types", .obj [("subset_of", .arr [.str "authorization_code"]), ("essential", .bool true)])], .obj [("grant_types", .obj [("add", .arr [.str "authorization_code", .str "refresh_token"])])], none, .obj [("grant_types", .arr [.str "authorization_code"])], .obj [], true⟩,
  ⟨1416, .obj [("grant_types", .obj [("subset_of", .arr [.str "authorization_code"])])], .obj [("grant_types", .obj [("add", .arr [.str "authorization_code", .str "refresh_token"]), ("essential", .bool true)])], none, .obj [("grant_types", .arr [.str "authorization_code"])], .obj [], true⟩,
  ⟨1417, .obj [("grant_types", .obj [("subset_of", .arr [.str "authorization_code"])])], .obj [("grant_types", .obj [("add", .arr [.str "authorization_code", .str "refresh_token"])])], none, .obj [("grant_types", .arr [.str "authorization_code"])], .obj [], true⟩,
  ⟨1418, .obj [("grant_types", .obj [("subset_of", .arr [.str "authorization_code"]), ("essential", .bool true)])], .obj [("grant_types", .obj [("add", .arr [.str "authorization_code", .str "refresh_token"]), ("essential", .bool true)])], none, .obj [("grant_types", .arr [.str "password"])], .obj [], true⟩,
  ⟨1419, .obj [("grant_types", .obj [("subset_of", .arr [.str "authorization_code"]), ("essential", .bool true)])], .obj [("grant_types", .obj [("add", .arr [.str "authorization_code", .str "refresh_token"])])], none, .obj [("grant_types", .arr [.str "password"])], .obj [], true⟩,
  ⟨1420, .obj [("grant_types", .obj [("subset_of", .arr [.str "authorization_code"])])], .obj [("grant_types", .obj [("add", .arr [.str "authorization_code", .str "refresh_token"]), ("essential", .bool true)])], none, .obj [("grant_types", .arr [.str "password"])], .obj [], true⟩,
  ⟨1421, .obj [("grant_types", .obj [("subset_of", .arr [.str "authorization_code"])])], .obj [("grant_types", .obj [("add", .arr [.str "authorization_code", .str "refresh_token"])])], none, .obj [("grant_types", .arr [.str "password"])], .obj [], true⟩,
  ⟨1422, .obj [("grant_types", .obj [("subset_of", .arr [.str "authorization_code"]), ("essential", .bool true)])], .obj [("grant_types", .obj [("add", .arr [.str "authorization_code", .str "refresh_token"]), ("essential", .bool true)])], none, .obj [("grant_types", .arr [.str "authorization_code", .str "refresh_token"])], .obj [], true⟩,
  ⟨1423, .obj [("grant_types", .obj [("subset_of", .arr [.str "authorization_code"]), ("essential", .bool true)])], .obj [("grant_types", .obj [("add", .arr [.str "authorization_code", .str "refresh_token"])])], none, .obj [("grant_types", .arr [.str "authorization_code", .str "refresh_token"])], .obj [], true⟩,
  ⟨1424, .obj [("grant_types", .obj [("subset_of", .arr [.str "authorization_code"])])], .obj [("grant_types", .obj [("add", .arr [.str "authorization_code", .str "refresh_token"]), ("essential", .bool true)])], none, .obj [("grant_types", .arr [.str "authorization_code", .str "refresh_token"])], .obj [], true⟩,
  ⟨1425, .obj [("grant_types", .obj [("subset_of", .arr [.str "authorization_code"])])], .obj [("grant_types", .obj [("add", .arr [.str "authorization_code", .str "refresh_token"])])], none, .obj [("grant_types", .arr [.str "authorization_code", .str "refresh_token"])], .obj [], true⟩,
  ⟨1426, .obj [("grant_types", .obj [("subset_of", .arr [.str "authorization_code"]), ("essential", .bool true)])], .obj [("grant_types", .obj [("add", .arr [.str "authorization_code", .str "refresh_token"]), ("essential", .bool true)])], none, .obj [("grant_types", .arr [.str "authorization_code", .str "password"])], .obj [], true⟩,
  ⟨1427, .obj [("grant_types", .obj [("subset_of", .arr [.str "authorization_code"]), ("essential", .bool true)])], .obj [("grant_types", .obj [("add", .arr [.str "authorization_code", .str "refresh_token"])])], none, .obj [("grant_types", .arr [.str "authorization_code", .str "password"])], .obj [], true⟩,
  ⟨1428, .obj [("grant_types", .obj [("subset_of", .arr [.str "authorization_code"])])], .obj [("grant_types", .obj [("add", .arr [.str "authorization_code", .str "refresh_token"]), ("essential", .bool true)])], none, .obj [("grant_types", .arr [.str "authorization_code", .str "password"])], .obj [], true⟩,
  ⟨1429, .obj [("grant_types", .obj [("subset_of", .arr [.str "authorization_code"])])], .obj [("grant_types", .obj [("add", .arr [.str "authorization_code", .str "refresh_token"])])], none, .obj [("grant_types", .arr [.str "authorization_code", .str "password"])], .obj [], true⟩,
  ⟨1430, .obj [("grant_types", .obj [("subset_of", .arr [.str "authorization_code"]), ("essential", .bool true)])], .obj [("grant_types", .obj [("add", .arr [.str "authorization_code", .str "refresh_token"]), ("essential", .bool true)])], none, .obj [("grant_types", .arr [])], .obj [], true⟩,
  ⟨1431, .obj [("grant_types", .obj [("subset_of", .arr [.str "authorization_code"]), ("essential", .bool true)])], .obj [("grant_types", .obj [("add", .arr [.str "authorization_code", .str "refresh_token"])])], none, .obj [("grant_types", .arr [])], .obj [], true⟩,
  ⟨1432, .obj [("grant_types", .obj [("subset_of", .arr [.str "authorization_code"])])], .obj [("grant_types", .obj [("add", .arr [.str "authorization_code", .str "refresh_token"]), ("essential", .bool true)])], none, .obj [("grant_types", .arr [])], .obj [], true⟩,
  ⟨1433, .obj [("grant_types", .obj [("subset_of", .arr [.str "authorization_code"])])], .obj [("grant_types", .obj [("add", .arr [.str "authorization_code", .str "refresh_token"])])], none, .obj [("grant_types", .arr [])], .obj [], true⟩,
  ⟨1434, .obj [("grant_types", .obj [("subset_of", .arr [.str "authorization_code"]), ("essential", .bool true)])], .obj [("grant_types", .obj [("add", .arr [.str "authorization_code", .str "refresh_token"]), ("essential", .bool true)])], none, .obj [], .obj [], true⟩,
  ⟨1435, .obj [("grant_types", .obj [("subset_of", .arr [.str "authorization_code"]), ("essential", .bool true)])], .obj [("grant_types", .obj [("add", .arr [.str "authorization_code", .str "refresh_token"])])], none, .obj [], .obj [], true⟩,
  ⟨1436, .obj [("grant_types", .obj [("subset_of", .arr [.str "authorization_code"])])], .obj [("grant_types", .obj [("add", .arr [.str "authorization_code", .str "refresh_token"]), ("essential", .bool true)])], none, .obj [], .obj [], true⟩,
  ⟨1437, .obj [("grant_types", .obj [("subset_of", .arr [.str "authorization_code"])])], .obj [("grant_types", .obj [("add", .arr [.str "authorization_code", .str "refresh_token"])])], none, .obj [], .obj [], true⟩,
  ⟨1438, .obj [("grant_types", .obj [("subset_of", .arr []), ("essential", .bool true)])], .obj [("grant_types", .obj [("default", .arr [.str "authorization_code"]), ("essential", .bool true)])], some (.obj [("grant_types", .obj [("default", .arr [.str "authorization_code"]), ("subset_of", .arr []), ("essential", .bool true)])]), .obj [("grant_types", .arr [.str "authorization_code"])], .obj [("grant_types", .arr [])], false⟩,
  ⟨1439, .obj [("grant_types", .obj [("subset_of", .arr []), ("essential", .bool true)])], .obj [("grant_types", .obj [("default", .arr [.str "authorization_code"])])], some (.obj [("grant_types", .obj [("default", .arr [.str "authorization_code"]), ("subset_of", .arr []), ("essential", .bool true)])]), .obj [("grant_types", .arr [.str "authorization_code"])], .obj [("grant_types", .arr [])], false⟩,
  ⟨1440, .obj [("grant_types", .obj [("subset_of", .arr [])])], .obj [("grant_types", .obj [("default", .arr [.str "authorization_code"]), ("essential", .bool true)])], some (.obj [("grant_types", .obj [("default", .arr [.str "authorization_code"]), ("subset_of", .arr []), ("essential", .bool true)])]), .obj [("grant_types", .arr [.str "authorization_code"])], .obj [("grant_types", .arr [])], false⟩,
  ⟨1441, .obj [("grant_types", .obj [("subset_of", .arr [])])], .obj [("grant_types", .obj [("default", .arr [.str "authorization_code"])])], some (.obj [("grant_types", .obj [("default", .arr [.str "authorization_code"]), ("subset_of", .arr [])])]), .obj [("grant_types", .arr [.str "authorization_code"])], .obj [("grant_types", .arr [])], false⟩,
  ⟨1442, .obj [("grant_types", .obj [("subset_of", .arr []), ("essential", .bool true)])], .obj [("grant_types", .obj [("default", .arr [.str "authorization_code"]), ("essential", .bool true)])], some (.obj [("grant_types", .obj [("default", .arr [.str "authorization_code"]), ("subset_of", .arr []), ("essential", .bool true)])]), .obj [("grant_types", .arr [.str "password"])], .obj [("grant_types", .arr [])], false⟩,
  ⟨1443, .obj [("grant_types", .obj [("subset_of", .arr []), ("essential", .bool true)])], .obj [("grant_types", .obj [("default", .arr [.str "authorization_code"])])], some (.obj [("grant_types", .obj [("default", .arr [.str "authorization_code"]), ("subset_of", .arr []), ("essential", .bool true)])]), .obj [("grant_types", .arr [.str "password"])], .obj [("grant_types", .arr [])], false⟩,
  ⟨1444, .obj [("grant_types", .obj [("subset_of", .arr [])])], .obj [("grant_types", .obj [("default", .arr [.str "authorization_code"]), ("essential", .bool true)])], some (.obj [("grant_types", .obj [("default", .arr [.str "authorization_code"]), ("subset_of", .arr []), ("essential", .bool true)])]), .obj [("grant_types", .arr [.str "password"])], .obj [("grant_types", .arr [])], false⟩,
  ⟨1445, .obj [("grant_types", .obj [("subset_of", .arr [])])], .obj [("grant_types", .obj [("default", .arr [.str "authorization_code"])])], some (.obj [("grant_types", .obj [("default", .arr [.str "authorization_code"]), ("subset_of", .arr [])])]), .obj [("grant_types", .arr [.str "password"])], .obj [("grant_types", .arr [])], false⟩,
  ⟨1446, .obj [("grant_types", .obj [("subset_of", .arr []), ("essential", .bool true)])], .obj [("grant_types", .obj [("default", .arr [.str "authorization_code"]), ("essential", .bool true)])], some (.obj [("grant_types", .obj [("default", .arr [.str "authorization_code"]), ("subset_of", .arr []), ("essential", .bool true)])]), .obj [("grant_types", .arr [.str "authorization_code", .str "refresh_token"])], .obj [("grant_types", .arr [])], false⟩,
  ⟨1447, .obj [("grant_types", .obj [("subset_of", .arr []), ("essential", .bool true)])], .obj [("grant_types", .obj [("default", .arr [.str "authorization_code"])])], some (.obj [("grant_types", .obj [("default", .arr [.str "authorization_code"]), ("subset_of", .arr []), ("essential", .bool true)])]), .obj [("grant_types", .arr [.str "authorization_code", .str "refresh_token"])], .obj [("grant_types", .arr [])], false⟩,
  ⟨1448, .obj [("grant_types", .obj [("subset_of", .arr [])])], .obj [("grant_types", .obj [("default", .arr [.str "authorization_code"]), ("essential", .bool true)])], some (.obj [("grant_types", .obj [("default", .arr [.str "authorization_code"]), ("subset_of", .arr []), ("essential", .bool true)])]), .obj [("grant_types", .arr [.str "authorization_code", .str "refresh_token"])], .obj [("grant_types", .arr [])], false⟩,
  ⟨1449, .obj [("grant_types", .obj [("subset_of", .arr [])])], .obj [("grant_types", .obj [("default", .arr [.str "authorization_code"])])], some (.obj [("grant_types", .obj [("default", .arr [.str "authorization_code"]), ("subset_of", .arr [])])]), .obj [("grant_types", .arr [.str "authorization_code", .str "refresh_token"])], .obj [("grant_types", .arr [])], false⟩,
  ⟨1450, .obj [("grant_types", .obj [("subset_of", .arr []), ("essential", .bool true)])], .obj [("grant_types", .obj [("default", .arr [.str "authorization_code"]), ("essential", .bool true)])], some (.obj [("grant_types", .obj [("default", .arr [.str "authorization_code"]), ("subset_of", .arr []), ("essential", .bool true)])]), .obj [("grant_types", .arr [.str "authorization_code", .str "password"])], .obj [("grant_types", .arr [])], false⟩,
  ⟨1451, .obj [("grant_types", .obj [("subset_of", .arr []), ("essential", .bool true)])], .obj [("grant_types", .obj [("default", .arr [.str "authorization_code"])])], some (.obj [("grant_types", .obj [("default", .arr [.str "authorization_code"]), ("subset_of", .arr []), ("essential", .bool true)])]), .obj [("grant_types", .arr [.str "authorization_code", .str "password"])], .obj [("grant_types", .arr [])], false⟩,
  ⟨1452, .obj [("grant_types", .obj [("subset_of", .arr [])])], .obj [("grant_types", .obj [("default", .arr [.str "authorization_code"]), ("essential", .bool true)])], some (.obj [("grant_types", .obj [("default", .arr [.str "authorization_code"]), ("subset_of", .arr []), ("essential", .bool true)])]), .obj [("grant_types", .arr [.str "authorization_code", .str "password"])], .obj [("grant_types", .arr [])], false⟩,
  ⟨1453, .obj [("grant_types", .obj [("subset_of", .arr [])])], .obj [("grant_types", .obj [("default", .arr [.str "authorization_code"])])], some (.obj [("grant_types", .obj [("default", .arr [.str "authorization_code"]), ("subset_of", .arr [])])]), .obj [("grant_types", .arr [.str "authorization_code", .str "password"])], .obj [("grant_types", .arr [])], false⟩,
  ⟨1454, .obj [("grant_types", .obj [("subset_of", .arr []), ("essential", .bool true)])], .obj [("grant_types", .obj [("default", .arr [.str "authorization_code"]), ("essential", .bool true)])], some (.obj [("grant_types", .obj [("default", .arr [.str "authorization_code"]), ("subset_of", .arr []), ("essential", .bool true)])]), .obj [("grant_types", .arr [])], .obj [("grant_types", .arr [])], false⟩,
  ⟨1455, .obj [("grant_types", .obj [("subset_of", .arr []), ("essential", .bool true)])], .obj [("grant_types", .obj [("default", .arr [.str "authorization_code"])])], some (.obj [("grant_types", .obj [("default", .arr [.str "authorization_code"]), ("subset_of", .arr []), ("essential", .bool true)])]), .obj [("grant_types", .arr [])], .obj [("grant_types", .arr [])], false⟩,
  ⟨1456, .obj [("grant_types", .obj [("subset_of", .arr [])])], .obj [("grant_types", .obj [("default", .arr [.str "authorization_code"]), ("essential", .bool true)])], some (.obj [("grant_types", .obj [("default", .arr [.str "authorization_code"]), ("subset_of", .arr []), ("essential", .bool true)])]), .obj [("grant_types", .arr [])], .obj [("grant_types", .arr [])], false⟩,
  ⟨1457, .obj [("grant_types", .obj [("subset_of", .arr [])])], .obj [("grant_types", .obj [("default", .arr [.str "authorization_code"])])], some (.obj [("grant_types", .obj [("default", .arr [.str "authorization_code"]), ("subset_of", .arr [])])]), .obj [("grant_types", .arr [])], .obj [("grant_types", .arr [])], false⟩,
  ⟨1458, .obj [("grant_types", .obj [("subset_of", .arr []), ("essential", .bool true)])], .obj [("grant_types", .obj [("default", .arr [.str "authorization_code"]), ("essential", .bool true)])], some (.obj [("grant_types", .obj [("default", .arr [.str "authorization_code"]), ("subset_of", .arr []), ("essential", .bool true)])]), .obj [], .obj [("grant_types", .arr [])], false⟩,
  ⟨1459, .obj [("grant_types", .obj [("subset_of", .arr []), ("essential", .bool true)])], .obj [("grant_types", .obj [("default", .arr [.str "authorization_code"])])], some (.obj [("grant_types", .obj [("default", .arr [.str "authorization_code"]), ("subset_of", .arr []), ("essential", .bool true)])]), .obj [], .obj [("grant_types", .arr [])], false⟩,
  ⟨1460, .obj [("grant_types", .obj [("subset_of", .arr [])])], .obj [("grant_types", .obj [("default", .arr [.str "authorization_code"]), ("essential", .bool true)])], some (.obj [("grant_types", .obj [("default", .arr [.str "authorization_code"]), ("subset_of", .arr []), ("essential", .bool true)])]), .obj [], .obj [("grant_types", .arr [])], false⟩,
  ⟨1461, .obj [("grant_types", .obj [("subset_of", .arr [])])], .obj [("grant_types", .obj [("default", .arr [.str "authorization_code"])])], some (.obj [("grant_types", .obj [("default", .arr [.str "authorization_code"]), ("subset_of", .arr [])])]), .obj [], .obj [("grant_types", .arr [])], false⟩,
  ⟨1462, .obj [("grant_types", .obj [("subset_of", .arr []), ("essential", .bool true)])], .obj [("grant_types", .obj [("default", .arr [.str "authorization_code", .str "refresh_token"]), ("essential", .bool true)])], some (.obj [("grant_types", .obj [("default", .arr [.str "authorization_code", .str "refresh_token"]), ("subset_of", .arr []), ("essential", .bool true)])]), .obj [("grant_types", .arr [.str "authorization_code"])], .obj [("grant_types", .arr [])], false⟩,
  ⟨1463, .obj [("grant_types", .obj [("subset_of", .arr []), ("essential", .bool true)])], .obj [("grant_types", .obj [("default", .arr [.str "authorization_code", .str "refresh_token"])])], some (.obj [("grant_types", .obj [("default", .arr [.str "authorization_code", .str "refresh_token"]), ("subset_of", .arr []), ("essential", .bool true)])]), .obj [("grant_types", .arr [.str "authorization_code"])], .obj [("grant_types", .arr [])], false⟩,
  ⟨1464, .obj [("grant_types", .obj [("subset_of", .arr [])])], .obj [("grant_types", .obj [("default", .arr [.str "authorization_code", .str "refresh_token"]), ("essential", .bool true)])], some (.obj [("grant_types", .obj [("default", .arr [.str "authorization_code", .str "refresh_token"]), ("subset_of", .arr []), ("essential", .bool true)])]), .obj [("grant_types", .arr [.str "authorization_code"])], .obj [("grant_types", .arr [])], false⟩,
  ⟨1465, .obj [("grant_types", .obj [("subset_of", .arr [])])], .obj [("grant_types", .obj [("default", .arr [.str "authorization_code", .str "refresh_token"])])], some (.obj [("grant_types", .obj [("default", .arr [.str "authorization_code", .str "refresh_token"]), ("subset_of", .arr [])])]), .obj [("grant_types", .arr [.str "authorization_code"])], .obj [("grant_types", .arr [])], false⟩,
  ⟨1466, .obj [("grant_types", .obj [("subset_of", .arr []), ("essential", .bool true)])], .obj [("grant_types", .obj [("default", .arr [.str "authorization_code", .str "refresh_token"]), ("essential", .bool true)])], some (.obj [("grant_types", .obj [("default", .arr [.str "authorization_code", .str "refresh_token"]), ("subset_of", .arr []), ("essential", .bool true)])]), .obj [("grant_types", .arr [.str "password"])], .obj [("grant_types", .arr [])], false⟩,
  ⟨1467, .obj [("grant_types", .obj [("subset_of", .arr []), ("essential", .bool true)])], .obj [("grant_types", .obj [("default", .arr [.str "authorization_code", .str "refresh_token"])])], some (.obj [("grant_types", .obj [("default", .arr [.str "authorization_code", .str "refresh_token"]), ("subset_of", .arr []), ("essential", .bool true)])]), .obj [("grant_types", .arr [.str "password"])], .obj [("grant_types", .arr [])], false⟩,
  ⟨1468, .obj [("grant_types", .obj [("subset_of", .arr [])])], .obj [("grant_types", .obj [("default", .arr [.str "authorization_code", .str "refresh_token"]), ("essential", .bool true)])], some (.obj [("grant_types", .obj [("default", .arr [.str "authorization_code", .str "refresh_token"]), ("subset_of", .arr []), ("essential", .bool true)])]), .obj [("grant_types", .arr [.str "password"])], .obj [("grant_types", .arr [])], false⟩,
  ⟨1469, .obj [("grant_types", .obj [("subset_of", .arr [])])], .obj [("grant_types", .obj [("default", .arr [.str "authorization_code", .str "refresh_token"])])], some (.obj [("grant_types", .obj [("default", .arr [.str "authorization_code", .str "refresh_token"]), ("subset_of", .arr [])])]), .obj [("grant_types", .arr [.str "password"])], .obj [("grant_types", .arr [])], false⟩,
  ⟨1470, .obj [("grant_types", .obj [("subset_of", .arr []), ("essential", .bool true)])], .obj [("grant_types", .obj [("default", .arr [.str "authorization_code", .str "refresh_token"]), ("essential", .bool true)])], some (.obj [("grant_types", .obj [("default", .arr [.str "authorization_code", .str "refresh_token"]), ("subset_of", .arr []), ("essential", .bool true)])]), .obj [("grant_types", .arr [.str "authorization_code", .str "refresh_token"])], .obj [("grant_types", .arr [])], false⟩,
  ⟨1471, .obj [("grant_types", .obj [("subset_of", .arr []), ("essential", .bool true)])], .obj [("grant_types", .obj [("default", .arr [.str "authorization_code", .str "refresh_token"])])], some (.obj [("grant_types", .obj [("default", .arr [.str "authorization_code", .str "refresh_token"]), ("subset_of", .arr []), ("essential", .bool true)])]), .obj [("grant_types", .arr [.str "authorization_code", .str "refresh_token"])], .obj [("grant_types", .arr [])], false⟩,
  ⟨1472, .obj [("grant_types", .obj [("subset_of", .arr [])])], .obj [("grant_types", .obj [("default", .arr [.str "authorization_code", .str "refresh_token"]), ("essential", .bool true)])], some (.obj [("grant_types", .obj [("default", .arr [.str "authorization_code", .str "refresh_token"]), ("subset_of", .arr []), ("essential", .bool true)])]), .obj [("grant_types", .arr [.str "authorization_code", .str "refresh_token"])], .obj [("grant_types", .arr [])], false⟩,
  ⟨1473, .obj [("grant_types", .obj [("subset_of", .arr [])])], .obj [("grant_types", .obj [("default", .arr [.str "authorization_code", .str "refresh_token"])])], some (.obj [("grant_types", .obj [("default", .arr [.str "authorization_code", .str "refresh_token"]), ("subset_of", .arr [])])]), .obj [("grant_types", .arr [.str "authorization_code", .str "refresh_token"])], .obj [("grant_types", .arr [])], false⟩,
  ⟨1474, .obj [("grant_types", .obj [("subset_of", .arr []), ("essential", .bool true)])], .obj [("grant_types", .obj [("default", .arr [.str "authorization_code", .str "refresh_token"]), ("essential", .bool true)])], some (.obj [("grant_types", .obj [("default", .arr [.str "authorization_code", .str "refresh_token"]), ("subset_of", .arr []), ("essential", .bool true)])]), .obj [("grant_types", .arr [.str "authorization_code", .str "password"])], .obj [("grant_types", .arr [])], false⟩,
  ⟨1475, .obj [("grant_types", .obj [("subset_of", .arr []), ("essential", .bool true)])], .obj [("grant_types", .obj [("default", .arr [.str "authorization_code", .str "refresh_token"])])], some (.obj [("grant_types", .obj [("default", .arr [.str "authorization_code", .str "refresh_token"]), ("subset_of", .arr []), ("essential", .bool true)])]), .obj [("grant_types", .arr [.str "authorization_code", .str "password"])], .obj [("grant_types", .arr [])], false⟩,
  ⟨1476, .obj [("grant_types", .obj [("subset_of", .arr [])])], .obj [("grant_types", .obj [("default", .arr [.str "authorization_code", .str "refresh_token"]), ("essential", .bool true)])], some (.obj [("grant_types", .obj [("default", .arr [.str "authorization_code", .str "refresh_token"]), ("subset_of", .arr []), ("essential", .bool true)])]), .obj [("grant_types", .arr [.str "authorization_code", .str "password"])], .obj [("grant_types", .arr [])], false⟩,
  ⟨1477, .obj [("grant_types", .obj [("subset_of", .arr [])])], .obj [("grant_types", .obj [("default", .arr [.str "authorization_code", .str "refresh_token"])])], some (.obj [("grant_types", .obj [("default", .arr [.str "authorization_code", .str "refresh_token"]), ("subset_of", .arr [])])]), .obj [("grant_types", .arr [.str "authorization_code", .str "password"])], .obj [("grant_types", .arr [])], false⟩,
  ⟨1478, .obj [("grant_types", .obj [("subset_of", .arr []), ("essential", .bool true)])], .obj [("grant_types", .obj [("default", .arr [.str "authorization_code", .str "refresh_token"]), ("essential", .bool true)])], some (.obj [("grant_types", .obj [("default", .arr [.str "authorization_code", .str "refresh_token"]), ("subset_of", .arr []), ("essential", .bool true)])]), .obj [("grant_types", .arr [])], .obj [("grant_types", .arr [])], false⟩,
  ⟨1479, .obj [("grant_types", .obj [("subset_of", .arr []), ("essential", .bool true)])], .obj [("grant_types", .obj [("default", .arr [.str "authorization_code", .str "refresh_token"])])], some (.obj [("grant_types", .obj [("default", .arr [.str "authorization_code", .str "refresh_token"]), ("subset_of", .arr []), ("essential", .bool true)])]), .obj [("grant_types", .arr [])], .obj [("grant_types", .arr [])], false⟩,
  ⟨1480, .obj [("grant_types", .obj [("subset_of", .arr [])])], .obj [("grant_types", .obj [("default", .arr [.str "authorization_code", .str "refresh_token"]), ("essential", .bool true)])], some (.obj [("grant_types", .obj [("default", .arr [.str "authorization_code", .str "refresh_token"]), ("subset_of", .arr []), ("essential", .bool true)])]), .obj [("grant_types", .arr [])], .obj [("grant_types", .arr [])], false⟩,
  ⟨1481, .obj [("grant_types", .obj [("subset_of", .arr [])])], .obj [("grant_types", .obj [("default", .arr [.str "authorization_code", .str "refresh_token"])])], some (.obj [("grant_types", .obj [("default", .arr [.str "authorization_code", .str "refresh_token"]), ("subset_of", .arr [])])]), .obj [("grant_types", .arr [])], .obj [("grant_types", .arr [])], false⟩,
  ⟨1482, .obj [("grant_types", .obj [("subset_of", .arr []), ("essential", .bool true)])], .obj [("grant_types", .obj [("default", .arr [.str "authorization_code", .str "refresh_token"]), ("essential", .bool true)])], some (.obj [("grant_types", .obj [("default", .arr [.str "authorization_code", .str "refresh_token"]), ("subset_of", .arr []), ("essential", .bool true)])]), .obj [], .obj [("grant_types", .arr [])], false⟩,
  ⟨1483, .obj [("grant_types", .obj [("subset_of", .arr []), ("essential", .bool true)])], .obj [("grant_types", .obj [("default", .arr [.str "authorization_code", .str "refresh_token"])])], some (.obj [("grant_types", .obj [("default", .arr [.str "authorization_code", .str "refresh_token"]), ("subset_of", .arr []), ("essential", .bool true)])]), .obj [], .obj [("grant_types", .arr [])], false⟩,
  ⟨1484, .obj [("grant_types", .obj [("subset_of", .arr [])])], .obj [("grant_types", .obj [("default", .arr [.str "authorization_code", .str "refresh_token"]), ("essential", .bool true)])], some (.obj [("grant_types", .obj [("default", .arr [.str "authorization_code", .str "refresh_token"]), ("subset_of", .arr []), ("essential", .bool true)])]), .obj [], .obj [("grant_types", .arr [])], false⟩,
  ⟨1485, .obj [("grant_types", .obj [("subset_of", .arr [])])], .obj [("grant_types", .obj [("default", .arr [.str "authorization_code", .str "refresh_token"])])], some (.obj [("grant_types", .obj [("default", .arr [.str "authorization_code", .str "refresh_token"]), ("subset_of", .arr [])])]), .obj [], .obj [("grant_types", .arr [])], false⟩,
  ⟨1486, .obj [("grant_types", .obj [("subset_of", .arr [.str "authorization_code"]), ("essential", .bool true)])], .obj [("grant_types", .obj [("default", .arr [.str "authorization_code", .str "refresh_token"]), ("essential", .bool true)])], some (.obj [("grant_types", .obj [("default", .arr [.str "authorization_code", .str "refresh_token"]), ("subset_of", .arr [.str "authorization_code"]), ("essential", .bool true)])]), .obj [("grant_types", .arr [.str "authorization_code"])], .obj [("grant_types", .arr [.str "authorization_code"])], false⟩,
  ⟨1487, .obj [("grant_types", .obj [("subset_of", .arr [.str "authorization_code"]), ("essential", .bool true)])], .obj [("grant_types", .obj [("default", .arr [.str "authorization_code", .str "refresh_token"])])], some (.obj [("grant_types", .obj [("default", .arr [.str "authorization_code", .str "refresh_token"]), ("subset_of", .arr [.str "authorization_code"]), ("essential", .bool true)])]), .obj [("grant_types", .arr [.str "authorization_code"])], .obj [("grant_types", .arr [.str "authorization_code"])], false⟩,
  ⟨1488, .obj [("grant_types", .obj [("subset_of", .arr [.str "authorization_code"])])], .obj [("grant_types", .obj [("default", .arr [.str "authorization_code", .str "refresh_token"]), ("essential", .bool true)])], some (.obj [("grant_types", .obj [("default", .arr [.str "authorization_code", .str "refresh_token"]), ("subset_of", .arr [.str "authorization_code"]), ("essential", .bool true)])]), .obj [("grant_types", .arr [.str "authorization_code"])], .obj [("grant_types", .arr [.str "authorization_code"])], false⟩,
  ⟨1489, .obj [("grant_types", .obj [("subset_of", .arr [.str "authorization_code"])])], .obj [("grant_types", .obj [("default", .arr [.str "authorization_code", .str "refresh_token"])])], some (.obj [("grant_types", .obj [("default", .arr [.str "authorization_code", .str "refresh_token"]), ("subset_of", .arr [.str "authorization_code"])])]), .obj [("grant_types", .arr [.str "authorization_code"])], .obj [("grant_types", .arr [.str "authorization_code"])], false⟩,
  ⟨1490, .obj [("grant_types", .obj [("subset_of", .arr [.str "authorization_code"]), ("essential", .bool true)])], .obj [("grant_types", .obj [("default", .arr [.str "authorization_code", .str "refresh_token"]), ("essential", .bool true)])], some (.obj [("grant_types", .obj [("default", .arr [.str "authorization_code", .str "refresh_token"]), ("subset_of", .arr [.str "authorization_code"]), ("essential", .bool true)])]), .obj [("grant_types", .arr [.str "password"])], .obj [("grant_types", .arr [])], false⟩,
  ⟨1491, .obj [("grant_types", .obj [("subset_of", .arr [.str "authorization_code"]), ("essential", .bool true)])], .obj [("grant_types", .obj [("default", .arr [.str "authorization_code", .str "refresh_token"])])], some (.obj [("grant_types", .obj [("default", .arr [.str "authorization_code", .str "refresh_token"]), ("subset_of", .arr [.str "authorization_code"]), ("essential", .bool true)])]), .obj [("grant_types", .arr [.str "password"])], .obj [("grant_types", .arr [])], false⟩,
  ⟨1492, .obj [("grant_types", .obj [("subset_of", .arr [.str "authorization_code"])])], .obj [("grant_types", .obj [("default", .arr [.str "authorization_code", .str "refresh_token"]), ("essential", .bool true)])], some (.obj [("grant_types", .obj [("default", .arr [.str "authorization_code", .str "refresh_token"]), ("subset_of", .arr [.str "authorization_code"]), ("essential", .bool true)])]), .obj [("grant_types", .arr [.str "password"])], .obj [("grant_types", .arr [])], false⟩,
  ⟨1493, .obj [("grant_types", .obj [("subset_of", .arr [.str "authorization_code"])])], .obj [("grant_types", .obj [("default", .arr [.str "authorization_code", .str "refresh_token"])])], some (.obj [("grant_types", .obj [("default", .arr [.str "authorization_code", .str "refresh_token"]), ("subset_of", .arr [.str "authorization_code"])])]), .obj [("grant_types", .arr [.str "password"])], .obj [("grant_types", .arr [])], false⟩,
  ⟨1494, .obj [("grant_types", .obj [("subset_of", .arr [.str "authorization_code"]), ("essential", .bool true)])], .obj [("grant_types", .obj [("default", .arr [.str "authorization_code", .str "refresh_token"]), ("essential", .bool true)])], some (.obj [("grant_types", .obj [("default", .arr [.str "authorization_code", .str "refresh_token"]), ("subset_of", .arr [.str "authorization_code"]), ("essential", .bool true)])]), .obj [("grant_types", .arr [.str "authorization_code", .str "refresh_token"])], .obj [("grant_types", .arr [.str "authorization_code"])], false⟩,
  ⟨1495, .obj [("grant_types", .obj [("subset_of", .arr [.str "authorization_code"]), ("essential", .bool true)])], .obj [("grant_types", .obj [("default", .arr [.str "authorization_code", .str "refresh_token"])])], some (.obj [("grant_types", .obj [("default", .arr [.str "authorization_code", .str "refresh_token"]), ("subset_of", .arr [.str "authorization_code"]), ("essential", .bool true)])]), .obj [("grant_types", .arr [.str "authorization_code", .str "refresh_token"])], .obj [("grant_types", .arr [.str "authorization_code"])], false⟩,
  ⟨1496, .obj [("grant_types", .obj [("subset_of", .arr [.str "authorization_code"])])], .obj [("grant_types", .obj [("default", .arr [.str "authorization_code", .str "refresh_token"]), ("essential", .bool true)])], some (.obj [("grant_types", .obj [("default", .arr [.str "authorization_code", .str "refresh_token"]), ("subset_of", .arr [.str "authorization_code"]), ("essential", .bool true)])]), .obj [("grant_types", .arr [.str "authorization_code", .str "refresh_token"])], .obj [("grant_types", .arr [.str "authorization_code"])], false⟩,
  ⟨1497, .obj [("grant_types", .obj [("subset_of", .arr [.str "authorization_code"])])], .obj [("grant_types", .obj [("default", .arr [.str "authorization_code", .str "refresh_token"])])], some (.obj [("grant_types", .obj [("default", .arr [.str "authorization_code", .str "refresh_token"]), ("subset_of", .arr [.str "authorization_code"])])]), .obj [("grant_types", .arr [.str "authorization_code", .str "refresh_token"])], .obj [("grant_types", .arr [.str "authorization_code"])], false⟩,
  ⟨1498, .obj [("grant_types", .obj [("subset_of", .arr [.str "authorization_code"]), ("essential", .bool true)])], .obj [("grant_types", .obj [("default", .arr [.str "authorization_code", .str "refresh_token"]), ("essential", .bool true)])], some (.obj [("grant_types", .obj [("default", .arr [.str "authorization_code", .str "refresh_token"]), ("subset_of", .arr [.str "authorization_code"]), ("essential", .bool true)])]), .obj [("grant_types", .arr [.str "authorization_code", .str "password"])], .obj [("grant_types", .arr [.str "authorization_code"])], false⟩,
  ⟨1499, .obj [("grant_types", .obj [("subset_of", .arr [.str "authorization_code"]), ("essential", .bool true)])], .obj [("grant_types", .obj [("default", .arr [.str "authorization_code", .str "refresh_token"])])], some (.obj [("grant_types", .obj [("default", .arr [.str "authorization_code", .str "refresh_token"]), ("subset_of", .arr [.str "authorization_code"]), ("essential", .bool true)])]), .obj [("grant_types", .arr [.str "authorization_code", .str "password"])], .obj [("grant_types", .arr [.str "authorization_code"])], false⟩,
  ⟨1500, .obj [("grant_types", .obj [("subset_of", .arr [.str "authorization_code"])])], .obj [("grant_types", .obj [("default", .arr [.str "authorization_code", .str "refresh_token"]), ("essential", .bool true)])], some (.obj [("grant_types", .obj [("default", .arr [.str "authorization_code", .str "refresh_token"]), ("subset_of", .arr [.str "authorization_code"]), ("essential", .bool true)])]), .obj [("grant_types", .arr [.str "authorization_code", .str "password"])], .obj [("grant_types", .arr [.str "authorization_code"])], false⟩,
  ⟨1501, .obj [("grant_types", .obj [("subset_of", .arr [.str "authorization_code"])])], .obj [("grant_types", .obj [("default", .arr [.str "authorization_code", .str "refresh_token"])])], some (.obj [("grant_types", .obj [("default", .arr [.str "authorization_code", .str "refresh_token"]), ("subset_of", .arr [.str "authorization_code"])])]), .obj [("grant_types", .arr [.str "authorization_code", .str "password"])], .obj [("grant_types", .arr [.str "authorization_code"])], false⟩,
  ⟨1502, .obj [("grant_types", .obj [("subset_of", .arr [.str "authorization_code"]), ("essential", .bool true)])], .obj [("grant_types", .obj [("default", .arr [.str "authorization_code", .str "refresh_token"]), ("essential", .bool true)])], some (.obj [("grant_types", .obj [("default", .arr [.str "authorization_code", .str "refresh_token"]), ("subset_of", .arr [.str "authorization_code"]), ("essential", .bool true)])]), .obj [("grant_types", .arr [])], .obj [("grant_types", .arr [])], false⟩,
  ⟨1503, .obj [("grant_types", .obj [("subset_of", .arr [.str "authorization_code"]), ("essential", .bool true)])], .obj [("grant_types", .obj [("default", .arr [.str "authorization_code", .str "refresh_token"])])], some (.obj [("grant_types", .obj [("default", .arr [.str "authorization_code", .str "refresh_token"]), ("subset_of", .arr [.str "authorization_code"]), ("essential", .bool true)])]), .obj [("grant_types", .arr [])], .obj [("grant_types", .arr [])], false⟩,
  ⟨1504, .obj [("grant_types", .obj [("subset_of", .arr [.str "authorization_code"])])], .obj [("grant_types", .obj [("default", .arr [.str "authorization_code", .str "refresh_token"]), ("essential", .bool true)])], some (.obj [("grant_types", .obj [("default", .arr [.str "authorization_code", .str "refresh_token"]), ("subset_of", .arr [.str "authorization_code"]), ("essential", .bool true)])]), .obj [("grant_types", .arr [])], .obj [("grant_types", .arr [])], false⟩,
  ⟨1505, .obj [("grant_types", .obj [("subset_of", .arr [.str "authorization_code"])])], .obj [("grant_types", .obj [("default", .arr [.str "authorization_code", .str "refresh_token"])])], some (.obj [("grant_types", .obj [("default", .arr [.str "authorization_code", .str "refresh_token"]), ("subset_of", .arr [.str "authorization_code"])])]), .obj [("grant_types", .arr [])], .obj [("grant_types", .arr [])], false⟩,
  ⟨1506, .obj [("grant_types", .obj [("subset_of", .arr [.str "authorization_code"]), ("essential", .bool true)])], .obj [("grant_types", .obj [("default", .arr [.str "authorization_code", .str "refresh_token"]), ("essential", .bool true)])], some (.obj [("grant_types", .obj [("default", .arr [.str "authorization_code", .str "refresh_token"]), ("subset_of", .arr [.str "authorization_code"]), ("essential", .bool true)])]), .obj [], .obj [("grant_types", .arr [.str "authorization_code"])], false⟩,
  ⟨1507, .obj [("grant_types", .obj [("subset_of", .arr [.str "authorization_code"]), ("essential", .bool true)])], .obj [("grant_types", .obj [("default", .arr [.str "authorization_code", .str "refresh_token"])])], some (.obj [("grant_types", .obj [("default", .arr [.str "authorization_code", .str "refresh_token"]), ("subset_of", .arr [.str "authorization_code"]), ("essential", .bool true)])]), .obj [], .obj [("grant_types", .arr [.str "authorization_code"])], false⟩,
  ⟨1508, .obj [("grant_types", .obj [("subset_of", .arr [.str "authorization_code"])])], .obj [("grant_types", .obj [("default", .arr [.str "authorization_code", .str "refresh_token"]), ("essential", .bool true)])], some (.obj [("grant_types", .obj [("default", .arr [.str "authorization_code", .str "refresh_token"]), ("subset_of", .arr [.str "authorization_code"]), ("essential", .bool true)])]), .obj [], .obj [("grant_types", .arr [.str "authorization_code"])], false⟩,
  ⟨1509, .obj [("grant_types", .obj [("subset_of", .arr [.str "authorization_code"])])], .obj [("grant_types", .obj [("default", .arr [.str "authorization_code", .str "refresh_token"])])], some (.obj [("grant_types", .obj [("default", .arr [.str "authorization_code", .str "refresh_token"]), ("subset_of", .arr [.str "authorization_code"])])]), .obj [], .obj [("grant_types", .arr [.str "authorization_code"])], false⟩,
  ⟨1510, .obj [("grant_types", .obj [("subset_of", .arr []), ("essential", .bool true)])], .obj [("grant_types", .obj [("subset_of", .arr [.str "authorization_code"]), ("essential", .bool true)])], some (.obj [("grant_types", .obj [("subset_of", .arr []), ("essential", .bool true)])]), .obj [("grant_types", .arr [.str "authorization_code"])], .obj [("grant_types", .arr [])], false⟩,
  ⟨1511, .obj [("grant_types", .obj [("subset_of", .arr []), ("essential", .bool true)])], .obj [("grant_types", .obj [("subset_of", .arr [.str "authorization_code"])])], some (.obj [("grant_types", .obj [("subset_of", .arr []), ("essential", .bool true)])]), .obj [("grant_types", .arr [.str "authorization_code"])], .obj [("grant_types", .arr [])], false⟩,
  ⟨1512, .obj [("grant_types", .obj [("subset_of", .arr [])])], .obj [("grant_types", .obj [("subset_of", .arr [.str "authorization_code"]), ("essential", .bool true)])], some (.obj [("grant_types", .obj [("subset_of", .arr []), ("essential", .bool true)])]), .obj [("grant_types", .arr [.str "authorization_code"])], .obj [("grant_types", .arr [])], false⟩,
  ⟨1513, .obj [("grant_types", .obj [("subset_of", .arr [])])], .obj [("grant_types", .obj [("subset_of", .arr [.str "authorization_code"])])], some (.obj [("grant_types", .obj [("subset_of", .arr [])])]), .obj [("grant_types", .arr [.str "authorization_code"])], .obj [("grant_types", .arr [])], false⟩,
  ⟨1514, .obj [("grant_types", .obj [("subset_of", .arr []), ("essential", .bool true)])], .obj [("grant_types", .obj [("subset_of", .arr [.str "authorization_code"]), ("essential", .bool true)])], some (.obj [("grant_types", .obj [("subset_of", .arr []), ("essential", .bool true)])]), .obj [("grant_types", .arr [.str "password"])], .obj [("grant_types", .arr [])], false⟩,
  ⟨1515, .obj [("grant_types", .obj [("subset_of", .arr []), ("essential", .bool true)])], .obj [("grant_types", .obj [("subset_of", .arr [.str "authorization_code"])])], some (.obj [("grant_types", .obj [("subset_of", .arr []), ("essential", .bool true)])]), .obj [("grant_types", .arr [.str "password"])], .obj [("grant_types", .arr [])], false⟩,
  ⟨1516, .obj [("grant_types", .obj [("subset_of", .arr [])])], .obj [("grant_types", .obj [("subset_of", .arr [.str "authorization_code"]), ("essential", .bool true)])], some (.obj [("grant_types", .obj [("subset_of", .arr []), ("essential", .bool true)])]), .obj [("grant_types", .arr [.str "password"])], .obj [("grant_types", .arr [])], false⟩,
  ⟨1517, .obj [("grant_types", .obj [("subset_of", .arr [])])], .obj [("grant_types", .obj [("subset_of", .arr [.str "authorization_code"])])], some (.obj [("grant_types", .obj [("subset_of", .arr [])])]), .obj [("grant_types", .arr [.str "password"])], .obj [("grant_types", .arr [])], false⟩,
  ⟨1518, .obj [("grant_types", .obj [("subset_of", .arr []), ("essential", .bool true)])], .obj [("grant_types", .obj [("subset_of", .arr [.str "authorization_code"]), ("essential", .bool true)])], some (.obj [("grant_types", .obj [("subset_of", .arr []), ("essential", .bool true)])]), .obj [("grant_types", .arr [.str "authorization_code", .str "refresh_token"])], .obj [("grant_types", .arr [])], false⟩,
  ⟨1519, .obj [("grant_types", .obj [("subset_of", .arr []), ("essential", .bool true)])], .obj [("grant_types", .obj [("subset_of", .arr [.str "authorization_code"])])], some (.obj [("grant_types", .obj [("subset_of", .arr []), ("essential", .bool true)])]), .obj [("grant_types", .arr [.str "authorization_code", .str "refresh_token"])], .obj [("grant_types", .arr [])], false⟩,
  ⟨1520, .obj [("grant_types", .obj [("subset_of", .arr [])])], .obj [("grant_types", .obj [("subset_of", .arr [.str "authorization_code"]), ("essential", .bool true)])], some (.obj [("grant_types", .obj [("subset_of", .arr []), ("essential", .bool true)])]), .obj [("grant_types", .arr [.str "authorization_code", .str "refresh_token"])], .obj [("grant_types", .arr [])], false⟩,
  ⟨1521, .obj [("grant_types", .obj [("subset_of", .arr [])])], .obj [("grant_types", .obj [("subset_of", .arr [.str "authorization_code"])])], some (.obj [("grant_types", .obj [("subset_of", .arr [])])]), .obj [("grant_types", .arr [.str "authorization_code", .str "refresh_token"])], .obj [("grant_types", .arr [])], false⟩,
  ⟨1522, .obj [("grant_types", .obj [("subset_of", .arr []), ("essential", .bool true)])], .obj [("grant_types", .obj [("subset_of", .arr [.str "authorization_code"]), ("essential", .bool true)])], some (.obj [("grant_types", .obj [("subset_of", .arr []), ("essential", .bool true)])]), .obj [("grant_types", .arr [.str "authorization_code", .str "password"])], .obj [("grant_types", .arr [])], false⟩,
  ⟨1523, .obj [("grant_types", .obj [("subset_of", .arr []), ("essential", .bool true)])], .obj [("grant_types", .obj [("subset_of", .arr [.str "authorization_code"])])], some (.obj [("grant_types", .obj [("subset_of", .arr []), ("essential", .bool true)])]), .obj [("grant_types", .arr [.str "authorization_code", .str "password"])], .obj [("grant_types", .arr [])], false⟩,
  ⟨1524, .obj [("grant_types", .obj [("subset_of", .arr [])])], .obj [("grant_types", .obj [("subset_of", .arr [.str "authorization_code"]), ("essential", .bool true)])], some (.obj [("grant_types", .obj [("subset_of", .arr []), ("essential", .bool true)])]), .obj [("grant_types", .arr [.str "authorization_code", .str "password"])], .obj [("grant_types", .arr [])], false⟩,
  ⟨1525, .obj [("grant_types", .obj [("subset_of", .arr [])])], .obj [("grant_types", .obj [("subset_of", .arr [.str "authorization_code"])])], some (.obj [("grant_types", .obj [("subset_of", .arr [])])]), .obj [("grant_types", .arr [.str "authorization_code", .str "password"])], .obj [("grant_types", .arr [])], false⟩,
  ⟨1526, .obj [("grant_types", .obj [("subset_of", .arr []), ("essential", .bool true)])], .obj [("grant_types", .obj [("subset_of", .arr [.str "authorization_code"]), ("essential", .bool true)])], some (.obj [("grant_types", .obj [("subset_of", .arr []), ("essential", .bool true)])]), .obj [("grant_types", .arr [])], .obj [("grant_types", .arr [])], false⟩,
  ⟨1527, .obj [("grant_types", .obj [("subset_of", .arr []), ("essential", .bool true)])], .obj [("grant_types", .obj [("subset_of", .arr [.str "authorization_code"])])], some (.obj [("grant_types", .obj [("subset_of", .arr []), ("essential", .bool true)])]), .obj [("grant_types", .arr [])], .obj [("grant_types", .arr [])], false⟩,
  ⟨1528, .obj [("grant_types", .obj [("subset_of", .arr [])])], .obj [("grant_types", .obj [("subset_of", .arr [.str "authorization_code"]), ("essential", .bool true)])], some (.obj [("grant_types", .obj [("subset_of", .arr []), ("essential", .bool true)])]), .obj [("grant_types", .arr [])], .obj [("grant_types", .arr [])], false⟩,
  ⟨1529, .obj [("grant_types", .obj [("subset_of", .arr [])])], .obj [("grant_types", .obj [("subset_of", .arr [.str "authorization_code"])])], some (.obj [("grant_types", .obj [("subset_of", .arr [])])]), .obj [("grant_types", .arr [])], .obj [("grant_types", .arr [])], false⟩,
  ⟨1530, .obj [("grant_types", .obj [("subset_of", .arr []), ("essential", .bool true)])], .obj [("grant_types", .obj [("subset_of", .arr [.str "authorization_code"]), ("essential", .bool true)])], some (.obj [("grant_types", .obj [("subset_of", .arr []), ("essential", .bool true)])]), .obj [], .obj [], true⟩,
  ⟨1531, .obj [("grant_types", .obj [("subset_of", .arr []), ("essential", .bool true)])], .obj [("grant_types", .obj [("subset_of", .arr [.str "authorization_code"])])], some (.obj [("grant_types", .obj [("subset_of", .arr []), ("essential", .bool true)])]), .obj [], .obj [], true⟩,
  ⟨1532, .obj [("grant_types", .obj [("subset_of", .arr [])])], .obj [("grant_types", .obj [("subset_of", .arr [.str "authorization_code"]), ("essential", .bool true)])], some (.obj [("grant_types", .obj [("subset_of", .arr []), ("essential", .bool true)])]), .obj [], .obj [], true⟩,
  ⟨1533, .obj [("grant_types", .obj [("subset_of", .arr [])])], .obj [("grant_types", .obj [("subset_of", .arr [.str "authorization_code"])])], some (.obj [("grant_types", .obj [("subset_of", .arr [])])]), .obj [], .obj [], false⟩,
  ⟨1534, .obj [("grant_types", .obj [("subset_of", .arr []), ("essential", .bool true)])], .obj [("grant_types", .obj [("subset_of", .arr [.str "authorization_code", .str "refresh_token"]), ("essential", .bool true)])], some (.obj [("grant_types", .obj [("subset_of", .arr []), ("essential", .bool true)])]), .obj [("grant_types", .arr [.str "authorization_code"])], .obj [("grant_types", .arr [])], false⟩,
  ⟨1535, .obj [("grant_types", .obj [("subset_of", .arr []), ("essential", .bool true)])], .obj [("grant_types", .obj [("subset_of", .arr [.str "authorization_code", .str "refresh_token"])])], some (.obj [("grant_types", .obj [("subset_of", .arr []), ("essential", .bool true)])]), .obj [("grant_types", .arr [.str "authorization_code"])], .obj [("grant_types", .arr [])], false⟩,
  ⟨1536, .obj [("grant_types", .obj [("subset_of", .arr [])])], .obj [("grant_types", .obj [("subset_of", .arr [.str "authorization_code", .str "refresh_token"]), ("essential", .bool true)])], some (.obj [("grant_types", .obj [("subset_of", .arr []), ("essential", .bool true)])]), .obj [("grant_types", .arr [.str "authorization_code"])], .obj [("grant_types", .arr [])], false⟩,
  ⟨1537, .obj [("grant_types", .obj [("subset_of", .arr [])])], .obj [("grant_types", .obj [("subset_of", .arr [.str "authorization_code", .str "refresh_token"])])], some (.obj [("grant_types", .obj [("subset_of", .arr [])])]), .obj [("grant_types", .arr [.str "authorization_code"])], .obj [("grant_types", .arr [])], false⟩,
  ⟨1538, .obj [("grant_types", .obj [("subset_of", .arr []), ("essential", .bool true)])], .obj [("grant_types", .obj [("subset_of", .arr [.str "authorization_code", .str "refresh_token"]), ("essential", .bool true)])], some (.obj [("grant_types", .obj [("subset_of", .arr []), ("essential", .bool true)])]), .obj [("grant_types", .arr [.str "password"])], .obj [("grant_types", .arr [])], false⟩,
  ⟨1539, .obj [("grant_types", .obj [("subset_of", .arr []), ("essential", .bool true)])], .obj [("grant_types", .obj [("subset_of", .arr [.str "authorization_code", .str "refresh_token"])])], some (.obj [("grant_types", .obj [("subset_of", .arr []), ("essential", .bool true)])]), .obj [("grant_types", .arr [.str "password"])], .obj [("grant_types", .arr [])], false⟩,
  ⟨1540, .obj [("grant_types", .obj [("subset_of", .arr [])])], .obj [("grant_types", .obj [("subset_of", .arr [.str "authorization_code", .str "refresh_token"]), ("essential", .bool true)])], some (.obj [("grant_types", .obj [("subset_of", .arr []), ("essential", .bool true)])]), .obj [("grant_types", .arr [.str "password"])], .obj [("grant_types", .arr [])], false⟩,
  ⟨1541, .obj [("grant_types", .obj [("subset_of", .arr [])])], .obj [("grant_types", .obj [("subset_of", .arr [.str "authorization_code", .str "refresh_token"])])], some (.obj [("grant_types", .obj [("subset_of", .arr [])])]), .obj [("grant_types", .arr [.str "password"])], .obj [("grant_types", .arr [])], false⟩,
  ⟨1542, .obj [("grant_types", .obj [("subset_of", .arr []), ("essential", .bool true)])], .obj [("grant_types", .obj [("subset_of", .arr [.str "authorization_code", .str "refresh_token"]), ("essential", .bool true)])], some (.obj [("grant_types", .obj [("subset_of", .arr []), ("essential", .bool true)])]), .obj [("grant_types", .arr [.str "authorization_code", .str "refresh_token"])], .obj [("grant_types", .arr [])], false⟩,
  ⟨1543, .obj [("grant_types", .obj [("subset_of", .arr []), ("essential", .bool true)])], .obj [("grant_types", .obj [("subset_of", .arr [.str "authorization_code", .str "refresh_token"])])], some (.obj [("grant_types", .obj [("subset_of", .arr []), ("essential", .bool true)])]), .obj [("grant_types", .arr [.str "authorization_code", .str "refresh_token"])], .obj [("grant_types", .arr [])], false⟩,
  ⟨1544, .obj [("grant_types", .obj [("subset_of", .arr [])])], .obj [("grant_types", .obj [("subset_of", .arr [.str "authorization_code", .str "refresh_token"]), ("essential", .bool true)])], some (.obj [("grant_types", .obj [("subset_of", .arr []), ("essential", .bool true)])]), .obj [("grant_types", .arr [.str "authorization_code", .str "refresh_token"])], .obj [("grant_types", .arr [])], false⟩,
  ⟨1545, .obj [("grant_types", .obj [("subset_of", .arr [])])], .obj [("grant_types", .obj [("subset_of", .arr [.str "authorization_code", .str "refresh_token"])])], some (.obj [("grant_types", .obj [("subset_of", .arr [])])]), .obj [("grant_types", .arr [.str "authorization_code", .str "refresh_token"])], .obj [("grant_types", .arr [])], false⟩,
  ⟨1546, .obj [("grant_types", .obj [("subset_of", .arr []), ("essential", .bool true)])], .obj [("grant_types", .obj [("subset_of", .arr [.str "authorization_code", .str "refresh_token"]), ("essential", .bool true)])], some (.obj [("grant_types", .obj [("subset_of", .arr []), ("essential", .bool true)])]), .obj [("grant_types", .arr [.str "authorization_code", .str "password"])], .obj [("grant_types", .arr [])], false⟩,
  ⟨1547, .obj [("grant_types", .obj [("subset_of", .arr []), ("essential", .bool true)])], .obj [("grant_types", .obj [("subset_of", .arr [.str "authorization_code", .str "refresh_token"])])], some (.obj [("grant_types", .obj [("subset_of", .arr []), ("essential", .bool true)])]), .obj [("grant_types", .arr [.str "authorization_code", .str "password"])], .obj [("grant_types", .arr [])], false⟩,
  ⟨1548, .obj [("grant_types", .obj [("subset_of", .arr [])])], .obj [("grant_types", .obj [("subset_of", .arr [.str "authorization_code", .str "refresh_token"]), ("essential", .bool true)])], some (.obj [("grant_types", .obj [("subset_of", .arr []), ("essential", .bool true)])]), .obj [("grant_types", .arr [.str "authorization_code", .str "password"])], .obj [("grant_types", .arr [])], false⟩,
  ⟨1549, .obj [("grant_types", .obj [("subset_of", .arr [])])], .obj [("grant_types", .obj [("subset_of", .arr [.str "authorization_code", .str "refresh_token"])])], some (.obj [("grant_types", .obj [("subset_of", .arr [])])]), .obj [("grant_types", .arr [.str "authorization_code", .str "password"])], .obj [("grant_types", .arr [])], false⟩,
  ⟨1550, .obj [("grant_types", .obj [("subset_of", .arr []), ("essential", .bool true)])], .obj [("grant_types", .obj [("subset_of", .arr [.str "authorization_code", .str "refresh_token"]), ("essential", .bool true)])], some (.obj [("grant_types", .obj [("subset_of", .arr []), ("essential", .bool true)])]), .obj [("grant_types", .arr [])], .obj [("grant_types", .arr [])], false⟩,
  ⟨1551, .obj [("grant_types", .obj [("subset_of", .arr []), ("essential", .bool true)])], .obj [("grant_types", .obj [("subset_of", .arr [.str "authorization_code", .str "refresh_token"])])], some (.obj [("grant_types", .obj [("subset_of", .arr []), ("essential", .bool true)])]), .obj [("grant_types", .arr [])], .obj [("grant_types", .arr [])], false⟩,
  ⟨1552, .obj [("grant_types", .obj [("subset_of", .arr [])])], .obj [("grant_types", .obj [("subset_of", .arr [.str "authorization_code", .str "refresh_token"]), ("essential", .bool true)])], some (.obj [("grant_types", .obj [("subset_of", .arr []), ("essential", .bool true)])]), .obj [("grant_types", .arr [])], .obj [("grant_types", .arr [])], false⟩,
  ⟨1553, .obj [("grant_types", .obj [("subset_of", .arr [])])], .obj [("grant_types", .obj [("subset_of", .arr [.str "authorization_code", .str "refresh_token"])])], some (.obj [("grant_types", .obj [("subset_of", .arr [])])]), .obj [("grant_types", .arr [])], .obj [("grant_types", .arr [])], false⟩,
  ⟨1554, .obj [("grant_types", .obj [("subset_of", .arr []), ("essential", .bool true)])], .obj [("grant_types", .obj [("subset_of", .arr [.str "authorization_code", .str "refresh_token"]), ("essential", .bool true)])], some (.obj [("grant_types", .obj [("subset_of", .arr []), ("essential", .bool true)])]), .obj [], .obj [], true⟩,
  ⟨1555, .obj [("grant_types", .obj [("subset_of", .arr []), ("essential", .bool true)])], .obj [("grant_types", .obj [("subset_of", .arr [.str "authorization_code", .str "refresh_token"])])], some (.obj [("grant_types", .obj [("subset_of", .arr []), ("essential", .bool true)])]), .obj [], .obj [], true⟩,
  ⟨1556, .obj [("grant_types", .obj [("subset_of", .arr [])])], .obj [("grant_types", .obj [("subset_of", .arr [.str "authorization_code", .str "refresh_token"]), ("essential", .bool true)])], some (.obj [("grant_types", .obj [("subset_of", .arr []), ("essential", .bool true)])]), .obj [], .obj [], true⟩,
  ⟨1557, .obj [("grant_types", .obj [("subset_of", .arr [])])], .obj [("grant_types", .obj [("subset_of", .arr [.str "authorization_code", .str "refresh_token"])])], some (.obj [("grant_types", .obj [("subset_of", .arr [])])]), .obj [], .obj [], false⟩,
  ⟨1558, .obj [("grant_types", .obj [("subset_of", .arr [.str "authorization_code"]), ("essential", .bool true)])], .obj [("grant_types", .obj [("subset_of", .arr [.str "authorization_code", .str "refresh_token"]), ("essential", .bool true)])], some (.obj [("grant_types", .obj [("subset_of", .arr [.str "authorization_code"]), ("essential", .bool true)])]), .obj [("grant_types", .arr [.str "authorization_code"])], .obj [("grant_types", .arr [.str "authorization_code"])], false⟩,
  ⟨1559, .obj [("grant_types", .obj [("subset_of", .arr [.str "authorization_code"]), ("essential", .bool true)])], .obj [("grant_types", .obj [("subset_of", .arr [.str "authorization_code", .str "refresh_token"])])], some (.obj [("grant_types", .obj [("subset_of", .arr [.str "authorization_code"]), ("essential", .bool true)])]), .obj [("grant_types", .arr [.str "authorization_code"])], .obj [("grant_types", .arr [.str "authorization_code"])], false⟩,
  ⟨1560, .obj [("grant_types", .obj [("subset_of", .arr [.str "authorization_code"])])], .obj [("grant_types", .obj [("subset_of", .arr [.str "authorization_code", .str "refresh_token"]), ("essential", .bool true)])], some (.obj [("grant_types", .obj [("subset_of", .arr [.str "authorization_code"]), ("essential", .bool true)])]), .obj [("grant_types", .arr [.str "authorization_code"])], .obj [("grant_types", .arr [.str "authorization_code"])], false⟩,
  ⟨1561, .obj [("grant_types", .obj [("subset_of", .arr [.str "authorization_code"])])], .obj [("grant_types", .obj [("subset_of", .arr [.str "authorization_code", .str "refresh_token"])])], some (.obj [("grant_types", .obj [("subset_of", .arr [.str "authorization_code"])])]), .obj [("grant_types", .arr [.str "authorization_code"])], .obj [("grant_types", .arr [.str "authorization_code"])], false⟩,
  ⟨1562, .obj [("grant_types", .obj [("subset_of", .arr [.str "authorization_code"]), ("essential", .bool true)])], .obj [("grant_types", .obj [("subset_of", .arr [.str "authorization_code", .str "refresh_token"]), ("essential", .bool true)])], some (.obj [("grant_types", .obj [("subset_of", .arr [.str "authorization_code"]), ("essential", .bool true)])]), .obj [("grant_types", .arr [.str "password"])], .obj [("grant_types", .arr [])], false⟩,
  ⟨1563, .obj [("grant_types", .obj [("subset_of", .arr [.str "authorization_code"]), ("essential", .bool true)])], .obj [("grant_types", .obj [("subset_of", .arr [.str "authorization_code", .str "refresh_token"])])], some (.obj [("grant_types", .obj [("subset_of", .arr [.str "authorization_code"]), ("essential", .bool true)])]), .obj [("grant_types", .arr [.str "password"])], .obj [("grant_types", .arr [])], false⟩,
  ⟨1564, .obj [("grant_types", .obj [("subset_of", .arr [.str "authorization_code"])])], .obj [("grant_types", .obj [("subset_of", .arr [.str "authorization_code", .str "refresh_token"]), ("essential", .bool true)])], some (.obj [("grant_types", .obj [("subset_of", .arr [.str "authorization_code"]), ("essential", .bool true)])]), .obj [("grant_types", .arr [.str "password"])], .obj [("grant_types", .arr [])], false⟩,
  ⟨1565, .obj [("grant_types", .obj [("subset_of", .arr [.str "authorization_code"])])], .obj [("grant_types", .obj [("subset_of", .arr [.str "authorization_code", .str "refresh_token"])])], some (.obj [("grant_types", .obj [("subset_of", .arr [.str "authorization_code"])])]), .obj [("grant_types", .arr [.str "password"])], .obj [("grant_types", .arr [])], false⟩,
  ⟨1566, .obj [("grant_types", .obj [("subset_of", .arr [.str "authorization_code"]), ("essential", .bool true)])], .obj [("grant_types", .obj [("subset_of", .arr [.str "authorization_code", .str "refresh_token"]), ("essential", .bool true)])], some (.obj [("grant_types", .obj [("subset_of", .arr [.str "authorization_code"]), ("essential", .bool true)])]), .obj [("grant_types", .arr [.str "authorization_code", .str "refresh_token"])], .obj [("grant_types", .arr [.str "authorization_code"])], false⟩,
  ⟨1567, .obj [("grant_types", .obj [("subset_of", .arr [.str "authorization_code"]), ("essential", .bool true)])], .obj [("grant_types", .obj [("subset_of", .arr [.str "authorization_code", .str "refresh_token"])])], some (.obj [("grant_types", .obj [("subset_of", .arr [.str "authorization_code"]), ("essential", .bool true)])]), .obj [("grant_types", .arr [.str "authorization_code", .str "refresh_token"])], .obj [("grant_types", .arr [.str "authorization_code"])], false⟩,
  ⟨1568, .obj [("grant_types", .obj [("subset_of", .arr [.str "authorization_code"])])], .obj [("grant_types", .obj [("subset_of", .arr [.str "authorization_code", .str "refresh_token"]), ("essential", .bool true)])], some (.obj [("grant_types", .obj [("subset_of", .arr [.str "authorization_code"]), ("essential", .bool true)])]), .obj [("grant_types", .arr [.str "authorization_code", .str "refresh_token"])], .obj [("grant_types", .arr [.str "authorization_code"])], false⟩,
  ⟨1569, .obj [("grant_types", .obj [("subset_of", .arr [.str "authorization_code"])])], .obj [("grant_types", .obj [("subset_of", .arr [.str "authorization_code", .str "refresh_token"])])], some (.obj [("grant_types", .obj [("subset_of", .arr [.str "authorization_code"])])]), .obj [("grant_types", .arr [.str "authorization_code", .str "refresh_token"])], .obj [("grant_types", .arr [.str "authorization_code"])], false⟩,
  ⟨1570, .obj [("grant_types", .obj [("subset_of", .arr [.str "authorization_code"]), ("essential", .bool true)])], .obj [("grant_types", .obj [("subset_of", .arr [.str "authorization_code", .str "refresh_token"]), ("essential", .bool true)])], some (.obj [("grant_types", .obj [("subset_of", .arr [.str "authorization_code"]), ("essential", .bool true)])]), .obj [("grant_types", .arr [.str "authorization_code", .str "password"])], .obj [("grant_types", .arr [.str "authorization_code"])], false⟩,
  ⟨1571, .obj [("grant_types", .obj [("subset_of", .arr [.str "authorization_code"]), ("essential", .bool true)])], .obj [("grant_types", .obj [("subset_of", .arr [.str "authorization_code", .str "refresh_token"])])], some (.obj [("grant_types", .obj [("subset_of", .arr [.str "authorization_code"]), ("essential", .bool true)])]), .obj [("grant_types", .arr [.str "authorization_code", .str "password"])], .obj [("grant_types", .arr [.str "authorization_code"])], false⟩,
  ⟨1572, .obj [("grant_types", .obj [("subset_of", .arr [.str "authorization_code"])])], .obj [("grant_types", .obj [("subset_of", .arr [.str "authorization_code", .str "refresh_token"]), ("essential", .bool true)])], some (.obj [("grant_types", .obj [("subset_of", .arr [.str "authorization_code"]), ("essential", .bool true)])]), .obj [("grant_types", .arr [.str "authorization_code", .str "password"])], .obj [("grant_types", .arr [.str "authorization_code"])], false⟩,
  ⟨1573, .obj [("grant_types", .obj [("subset_of", .arr [.str "authorization_code"])])], .obj [("grant_types", .obj [("subset_of", .arr [.str "authorization_code", .str "refresh_token"])])], some (.obj [("grant_types", .obj [("subset_of", .arr [.str "authorization_code"])])]), .obj [("grant_types", .arr [.str "authorization_code", .str "password"])], .obj [("grant_types", .arr [.str "authorization_code"])], false⟩,
  ⟨1574, .obj [("grant_types", .obj [("subset_of", .arr [.str "authorization_code"]), ("essential", .bool true)])], .obj [("grant_types", .obj [("subset_of", .arr [.str "authorization_code", .str "refresh_token"]), ("essential", .bool true)])], some (.obj [("grant_types", .obj [("subset_of", .arr [.str "authorization_code"]), ("essential", .bool true)])]), .obj [("grant_types", .arr [])], .obj [("grant_types", .arr [])], false⟩,
  ⟨1575, .obj [("grant_types", .obj [("subset_of", .arr [.str "authorization_code"]), ("essential", .bool true)])], .obj [("grant_types", .obj [("subset_of", .arr [.str "authorization_code", .str "refresh_token"])])], some (.obj [("grant_types", .obj [("subset_of", .arr [.str "authorization_code"]), ("essential", .bool true)])]), .obj [("grant_types", .arr [])], .obj [("grant_types", .arr [])], false⟩,
  ⟨1576, .obj [("grant_types", .obj [("subset_of", .arr [.str "authorization_code"])])], .obj [("grant_types", .obj [("subset_of", .arr [.str "authorization_code", .str "refresh_token"]), ("essential", .bool true)])], some (.obj [("grant_types", .obj [("subset_of", .arr [.str "authorization_code"]), ("essential", .bool true)])]), .obj [("grant_types", .arr [])], .obj [("grant_types", .arr [])], false⟩,
  ⟨1577, .obj [("grant_types", .obj [("subset_of", .arr [.str "authorization_code"])])], .obj [("grant_types", .obj [("subset_of", .arr [.str "authorization_code", .str "refresh_token"])])], some (.obj [("grant_types", .obj [("subset_of", .arr [.str "authorization_code"])])]), .obj [("grant_types", .arr [])], .obj [("grant_types", .arr [])], false⟩,
  ⟨1578, .obj [("grant_types", .obj [("subset_of", .arr [.str "authorization_code"]), ("essential", .bool true)])], .obj [("grant_types", .obj [("subset_of", .arr [.str "authorization_code", .str "refresh_token"]), ("essential", .bool true)])], some (.obj [("grant_types", .obj [("subset_of", .arr [.str "authorization_code"]), ("essential", .bool true)])]), .obj [], .obj [], true⟩,
  ⟨1579, .obj [("grant_types", .obj [("subset_of", .arr [.str "authorization_code"]), ("essential", .bool true)])], .obj [("grant_types", .obj [("subset_of", .arr [.str "authorization_code", .str "refresh_token"])])], some (.obj [("grant_types", .obj [("subset_of", .arr [.str "authorization_code"]), ("essential", .bool true)])]), .obj [], .obj [], true⟩,
  ⟨1580, .obj [("grant_types", .obj [("subset_of", .arr [.str "authorization_code"])])], .obj [("grant_types", .obj [("subset_of", .arr [.str "authorization_code", .str "refresh_token"]), ("essential", .bool true)])], some (.obj [("grant_types", .obj [("subset_of", .arr [.str "authorization_code"]), ("essential", .bool true)])]), .obj [], .obj [], true⟩,
  ⟨1581, .obj [("grant_types", .obj [("subset_of", .arr [.str "authorization_code"])])], .obj [("grant_types", .obj [("subset_of", .arr [.str "authorization_code", .str "refresh_token"])])], some (.obj [("grant_types", .obj [("subset_of", .arr [.str "authorization_code"])])]), .obj [], .obj [], false⟩,
  ⟨1582, .obj [("grant_types", .obj [("subset_of", .arr []), ("essential", .bool true)])], .obj [("grant_types", .obj [("superset_of", .arr [.str "authorization_code"]), ("essential", .bool true)])], none, .obj [("grant_types", .arr [.str "authorization_code"])], .obj [], true⟩,
  ⟨1583, .obj [("grant_types", .obj [("subset_of", .arr []), ("essential", .bool true)])], .obj [("grant_types", .obj [("superset_of", .arr [.str "authorization_code"])])], none, .obj [("grant_types", .arr [.str "authorization_code"])], .obj [], true⟩,
  ⟨1584, .obj [("grant_types", .obj [("subset_of", .arr [])])], .obj [("grant_types", .obj [("superset_of", .arr [.str "authorization_code"]), ("essential", .bool true)])], none, .obj [("grant_types", .arr [.str "authorization_code"])], .obj [], true⟩,
  ⟨1585, .obj [("grant_types", .obj [("subset_of", .arr [])])], .obj [("grant_types", .obj [("superset_of", .arr [.str "authorization_code"])])], none, .obj [("grant_types", .arr [.str "authorization_code"])], .obj [], true⟩,
  ⟨1586, .obj [("grant_types", .obj [("subset_of", .arr []), ("essential", .bool true)])], .obj [("grant_types", .obj [("superset_of", .arr [.str "authorization_code"]), ("essential", .bool true)])], none, .obj [("grant_types", .arr [.str "password"])], .obj [], true⟩,
  ⟨1587, .obj [("grant_types", .obj [("subset_of", .arr []), ("essential", .bool true)])], .obj [("grant_types", .obj [("superset_of", .arr [.str "authorization_code"])])], none, .obj [("grant_types", .arr [.str "password"])], .obj [], true⟩,
  ⟨1588, .obj [("grant_types", .obj [("subset_of", .arr [])])], .obj [("grant_types", .obj [("superset_of", .arr [.str "authorization_code"]), ("essential", .bool true)])], none, .obj [("grant_types", .arr [.str "password"])], .obj [], true⟩,
  ⟨1589, .obj [("grant_types", .obj [("subset_of", .arr [])])], .obj [("grant_types", .obj [("superset_of", .arr [.str "authorization_code"])])], none, .obj [("grant_types", .arr [.str "password"])], .obj [], true⟩,
  ⟨1590, .obj [("grant_types", .obj [("subset_of", .arr []), ("essential", .bool true)])], .obj [("grant_types", .obj [("superset_of", .arr [.str "authorization_code"]), ("essential", .bool true)])], none, .obj [("grant_types", .arr [.str "authorization_code", .str "refresh_token"])], .obj [], true⟩,
  ⟨1591, .obj [("grant_types", .obj [("subset_of", .arr []), ("essential", .bool true)])], .obj [("grant_types", .obj [("superset_of", .arr [.str "authorization_code"])])], none, .obj [("grant_types", .arr [.str "authorization_code", .str "refresh_token"])], .obj [], true⟩,
  ⟨1592, .obj [("grant_types", .obj [("subset_of", .arr [])])], .obj [("grant_types", .obj [("superset_of", .arr [.str "authorization_code"]), ("essential", .bool true)])], none, .obj [("grant_types", .arr [.str "authorization_code", .str "refresh_token"])], .obj [], true⟩,
  ⟨1593, .obj [("grant_types", .obj [("subset_of", .arr [])])], .obj [("grant_types", .obj [("superset_of", .arr [.str "authorization_code"])])], none, .obj [("grant_types", .arr [.str "authorization_code", .str "refresh_token"])], .obj [], true⟩,
  ⟨1594, .obj [("grant_types", .obj [("subset_of", .arr []), ("essential", .bool true)])], .obj [("grant_types", .obj [("superset_of", .arr [.str "authorization_code"]), ("essential", .bool true)])], none, .obj [("grant_types", .arr [.str "authorization_code", .str "password"])], .obj [], true⟩,
  ⟨1595, .obj [("grant_types", .obj [("subset_of", .arr []), ("essential", .bool true)])], .obj [("grant_types", .obj [("superset_of", .arr [.str "authorization_code"])])], none, .obj [("grant_types", .arr [.str "authorization_code", .str "password"])], .obj [], true⟩,
  ⟨1596, .obj [("grant_types", .obj [("subset_of", .arr [])])], .obj [("grant_types", .obj [("superset_of", .arr [.str "authorization_code"]), ("essential", .bool true)])], none, .obj [("grant_types", .arr [.str "authorization_code", .str "password"])], .obj [], true⟩,
  ⟨1597, .obj [("grant_types", .obj [("subset_of", .arr [])])], .obj [("grant_types", .obj [("superset_of", .arr [.str "authorization_code"])])], none, .obj [("grant_types", .arr [.str "authorization_code", .str "password"])], .obj [], true⟩,
  ⟨1598, .obj [("grant_types", .obj [("subset_of", .arr []), ("essential", .bool true)])], .obj [("grant_types", .obj [("superset_of", .arr [.str "authorization_code"]), ("essential", .bool true)])], none, .obj [("grant_types", .arr [])], .obj [], true⟩,
  ⟨1599, .obj [("grant_types", .obj [("subset_of", .arr []), ("essential", .bool true)])], .obj [("grant_types", .obj [("superset_of", .arr [.str "authorization_code"])])], none, .obj [("grant_types", .arr [])], .obj [], true⟩,
  ⟨1600, .obj [("grant_types", .obj [("subset_of", .arr [])])], .obj [("grant_types", .obj [("superset_of", .arr [.str "authorization_code"]), ("essential", .bool true)])], none, .obj [("grant_types", .arr [])], .obj [], true⟩,
  ⟨1601, .obj [("grant_types", .obj [("subset_of", .arr [])])], .obj [("grant_types", .obj [("superset_of", .arr [.str "authorization_code"])])], none, .obj [("grant_types", .arr [])], .obj [], true⟩,
  ⟨1602, .obj [("grant_types", .obj [("subset_of", .arr []), ("essential", .bool true)])], .obj [("grant_types", .obj [("superset_of", .arr [.str "authorization_code"]), ("essential", .bool true)])], none, .obj [], .obj [], true⟩,
  ⟨1603, .obj [("grant_types", .obj [("subset_of", .arr []), ("essential", .bool true)])], .obj [("grant_types", .obj [("superset_of", .arr [.str "authorization_code"])])], none, .obj [], .obj [], true⟩,
  ⟨1604, .obj [("grant_types", .obj [("subset_of", .arr [])])], .obj [("grant_types", .obj [("superset_of", .arr [.str "authorization_code"]), ("essential", .bool true)])], none, .obj [], .obj [], true⟩,
  ⟨1605, .obj [("grant_types", .obj [("subset_of", .arr [])])], .obj [("grant_types", .obj [("superset_of", .arr [.str "authorization_code"])])], none, .obj [], .obj [], true⟩,
  ⟨1606, .obj [("grant_types", .obj [("subset_of", .arr []), ("essential", .bool true)])], .obj [("grant_types", .obj [("superset_of", .arr [.str "authorization_code", .str "refresh_token"]), ("essential", .bool true)])], none, .obj [("grant_types", .arr [.str "authorization_code"])], .obj [], true⟩,
  ⟨1607, .obj [("grant_types", .obj [("subset_of", .arr []), ("essential", .bool true)])], .obj [("grant_types", .obj [("superset_of", .arr [.str "authorization_code", .str "refresh_token"])])], none, .obj [("grant_types", .arr [.str "authorization_code"])], .obj [], true⟩,
  ⟨1608, .obj [("grant_types", .obj [("subset_of", .arr [])])], .obj [("grant_types", .obj [("superset_of", .arr [.str "authorization_code", .str "refresh_token"]), ("essential", .bool true)])], none, .obj [("grant_types", .arr [.str "authorization_code"])], .obj [], true⟩,
  ⟨1609, .obj [("grant_types", .obj [("subset_of", .arr [])])], .obj [("grant_types", .obj [("superset_of", .arr [.str "authorization_code", .str "refresh_token"])])], none, .obj [("grant_types", .arr [.str "authorization_code"])], .obj [], true⟩,
  ⟨1610, .obj [("grant_types", .obj [("subset_of", .arr []), ("essential", .bool true)])], .obj [("grant_types", .obj [("superset_of", .arr [.str "authorization_code", .str "refresh_token"]), ("essential", .bool true)])], none, .obj [("grant_types", .arr [.str "password"])], .obj [], true⟩,
  ⟨1611, .obj [("grant_types", .obj [("subset_of", .arr []), ("essential", .bool true)])], .obj [("grant_types", .obj [("superset_of", .arr [.str "authorization_code", .str "refresh_token"])])], none, .obj [("grant_types", .arr [.str "password"])], .obj [], true⟩,
  ⟨1612, .obj [("grant_types", .obj [("subset_of", .arr [])])], .obj [("grant_types", .obj [("superset_of", .arr [.str "authorization_code", .str "refresh_token"]), ("essential", .bool true)])], none, .obj [("grant_types", .arr [.str "password"])], .obj [], true⟩,
  ⟨1613, .obj [("grant_types", .obj [("subset_of", .arr [])])], .obj [("grant_types", .obj [("superset_of", .arr [.str "authorization_code", .str "refresh_token"])])], none, .obj [("grant_types", .arr [.str "password"])], .obj [], true⟩,
  ⟨1614, .obj [("grant_types", .obj [("subset_of", .arr []), ("essential", .bool true)])], .obj [("grant_types", .obj [("superset_of", .arr [.str "authorization_code", .str "refresh_token"]), ("essential", .bool true)])], none, .obj [("grant_types", .arr [.str "authorization_code", .str "refresh_token"])], .obj [], true⟩,
  ⟨1615, .obj [("grant_types", .obj [("subset_of", .arr []), ("essential", .bool true)])], .obj [("grant_types", .obj [("superset_of", .arr [.str "authorization_code", .str "refresh_token"])])], none, .obj [("grant_types", .arr [.str "authorization_code", .str "refresh_token"])], .obj [], true⟩,
  ⟨1616, .obj [("grant_types", .obj [("subset_of", .arr [])])], .obj [("grant_types", .obj [("superset_of", .arr [.str "authorization_code", .str "refresh_token"]), ("essential", .bool true)])], none, .obj [("grant_types", .arr [.str "authorization_code", .str "refresh_token"])], .obj [], true⟩,
  ⟨1617, .obj [("grant_types", .obj [("subset_of", .arr [])])], .obj [("grant_types", .obj [("superset_of", .arr [.str "authorization_code", .str "refresh_token"])])], none, .obj [("grant_types", .arr [.str "authorization_code", .str "refresh_token"])], .obj [], true⟩,
  ⟨1618, .obj [("grant_types", .obj [("subset_of", .arr []), ("essential", .bool true)])], .obj [("grant_types", .obj [("superset_of", .arr [.str "authorization_code", .str "refresh_token"]), ("essential", .bool true)])], none, .obj [("grant_types", .arr [.str "authorization_code", .str "password"])], .obj [], true⟩,
  ⟨1619, .obj [("grant_types", .obj [("subset_of", .arr []), ("essential", .bool true)])], .obj [("grant_types", .obj [("superset_of", .arr [.str "authorization_code", .str "refresh_token"])])], none, .obj [("grant_types", .arr [.str "authorization_code", .str "password"])], .obj [], true⟩,
  ⟨1620, .obj [("grant_types", .obj [("subset_of", .arr [])])], .obj [("grant_types", .obj [("superset_of", .arr [.str "authorization_code", .str "refresh_token"]), ("essential", .bool true)])], none, .obj [("grant_types", .arr [.str "authorization_code", .str "password"])], .obj [], true⟩,
  ⟨1621, .obj [("grant_types", .obj [("subset_of", .arr [])])], .obj [("grant_types", .obj [("superset_of", .arr [.str "authorization_code", .str "refresh_token"])])], none, .obj [("grant_types", .arr [.str "authorization_code", .str "password"])], .obj [], true⟩,
  ⟨1622, .obj [("grant_types", .obj [("subset_of", .arr []), ("essential", .bool true)])], .obj [("grant_types", .obj [("superset_of", .arr [.str "authorization_code", .str "refresh_token"]), ("essential", .bool true)])], none, .obj [("grant_types", .arr [])], .obj [], true⟩,
  ⟨1623, .obj [("grant_types", .obj [("subset_of", .arr []), ("essential", .bool true)])], .obj [("grant_types", .obj [("superset_of", .arr [.str "authorization_code", .str "refresh_token"])])], none, .obj [("grant_types", .arr [])], .obj [], true⟩,
  ⟨1624, .obj [("grant_types", .obj [("subset_of", .arr [])])], .obj [("grant_types", .obj [("superset_of", .arr [.str "authorization_code", .str "refresh_token"]), ("essential", .bool true)])], none, .obj [("grant_types", .arr [])], .obj [], true⟩,
  ⟨1625, .obj [("grant_types", .obj [("subset_of", .arr [])])], .obj [("grant_types", .obj [("superset_of", .arr [.str "authorization_code", .str "refresh_token"])])], none, .obj [("grant_types", .arr [])], .obj [], true⟩,
  ⟨1626, .obj [("grant_types", .obj [("subset_of", .arr []), ("essential", .bool true)])], .obj [("grant_types", .obj [("superset_of", .arr [.str "authorization_code", .str "refresh_token"]), ("essential", .bool true)])], none, .obj [], .obj [], true⟩,
  ⟨1627, .obj [("grant_types", .obj [("subset_of", .arr []), ("essential", .bool true)])], .obj [("grant_types", .obj [("superset_of", .arr [.str "authorization_code", .str "refresh_token"])])], none, .obj [], .obj [], true⟩,
  ⟨1628, .obj [("grant_types", .obj [("subset_of", .arr [])])], .obj [("grant_types", .obj [("superset_of", .arr [.str "authorization_code", .str "refresh_token"]), ("essential", .bool true)])], none, .obj [], .obj [], true⟩,
  ⟨1629, .obj [("grant_types", .obj [("subset_of", .arr [])])], .obj [("grant_types", .obj [("superset_of", .arr [.str "authorization_code", .str "refresh_token"])])], none, .obj [], .obj [], true⟩,
  ⟨1630, .obj [("grant_types", .obj [("subset_of", .arr [.str "authorization_code"]), ("essential", .bool true)])], .obj [("grant_types", .obj [("superset_of", .arr [.str "authorization_code", .str "refresh_token"]), ("essential", .bool true)])], none, .obj [("grant_types", .arr [.str "authorization_code"])], .obj [], true⟩,
  ⟨1631, .obj [("grant_types", .obj [("subset_of", .arr [.str "authorization_code"]), ("essential", .bool true)])], .obj [("grant_types", .obj [("superset_of", .arr [.str "authorization_code", .str "refresh_token"])])], none, .obj [("grant_types", .arr [.str "authorization_code"])], .obj [], true⟩,
  ⟨1632, .obj [("grant_types", .obj [("subset_of", .arr [.str "authorization_code"])])], .obj [("grant_types", .obj [("superset_of", .arr [.str "authorization_code", .str "refresh_token"]), ("essential", .bool true)])], none, .obj [("grant_types", .arr [.str "authorization_code"])], .obj [], true⟩,
  ⟨1633, .obj [("grant_types", .obj [("subset_of", .arr [.str "authorization_code"])])], .obj [("grant_types", .obj [("superset_of", .arr [.str "authorization_code", .str "refresh_token"])])], none, .obj [("grant_types", .arr [.str "authorization_code"])], .obj [], true⟩,
  ⟨1634, .obj [("grant_types", .obj [("subset_of", .arr [.str "authorization_code"]), ("essential", .bool true)])], .obj [("grant_types", .obj [("superset_of", .arr [.str "authorization_code", .str "refresh_token"]), ("essential", .bool true)])], none, .obj [("grant_types", .arr [.str "password"])], .obj [], true⟩,
  ⟨1635, .obj [("grant_types", .obj [("subset_of", .arr [.str "authorization_code"]), ("essential", .bool true)])], .obj [("grant_types", .obj [("superset_of", .arr [.str "authorization_code", .str "refresh_token"])])], none, .obj [("grant_types", .arr [.str "password"])], .obj [], true⟩,
  ⟨1636, .obj [("grant_types", .obj [("subset_of", .arr [.str "authorization_code"])])], .obj [("grant_types", .obj [("superset_of", .arr [.str "authorization_code", .str "refresh_token"]), ("essential", .bool true)])], none, .obj [("grant_types", .arr [.str "password"])], .obj [], true⟩,
  ⟨1637, .obj [("grant_types", .obj [("subset_of", .arr [.str "authorization_code"])])], .obj [("grant_types", .obj [("superset_of", .arr [.str "authorization_code", .str "refresh_token"])])], none, .obj [("grant_types", .arr [.str "password"])], .obj [], true⟩,
  ⟨1638, .obj [("grant_types", .obj [("subset_of", .arr [.str "authorization_code"]), ("essential", .bool true)])], .obj [("grant_types", .obj [("superset_of", .arr [.str "authorization_code", .str "refresh_token"]), ("essential", .bool true)])], none, .obj [("grant_types", .arr [.str "authorization_code", .str "refresh_token"])], .obj [], true⟩,
  ⟨1639, .obj [("grant_types", .obj [("subset_of", .arr [.str "authorization_code"]), ("essential", .bool true)])], .obj [("grant_types", .obj [("superset_of", .arr [.str "authorization_code", .str "refresh_token"])])], none, .obj [("grant_types", .arr [.str "authorization_code", .str "refresh_token"])], .obj [], true⟩,
  ⟨1640, .obj [("grant_types", .obj [("subset_of", .arr [.str "authorization_code"])])], .obj [("grant_types", .obj [("superset_of", .arr [.str "authorization_code", .str "refresh_token"]), ("essential", .bool true)])], none, .obj [("grant_types", .arr [.str "authorization_code", .str "refresh_token"])], .obj [], true⟩,
  ⟨1641, .obj [("grant_types", .obj [("subset_of", .arr [.str "authorization_code"])])], .obj [("grant_types", .obj [("superset_of", .arr [.str "authorization_code", .str "refresh_token"])])], none, .obj [("grant_types", .arr [.str "authorization_code", .str "refresh_token"])], .obj [], true⟩,
  ⟨1642, .obj [("grant_types", .obj [("subset_of", .arr [.str "authorization_code"]), ("essential", .bool true)])], .obj [("grant_types", .obj [("superset_of", .arr [.str "authorization_code", .str "refresh_token"]), ("essential", .bool true)])], none, .obj [("grant_types", .arr [.str "authorization_code", .str "password"])], .obj [], true⟩,
  ⟨1643, .obj [("grant_types", .obj [("subset_of", .arr [.str "authorization_code"]), ("essential", .bool true)])], .obj [("grant_types", .obj [("superset_of", .arr [.str "authorization_code", .str "refresh_token"])])], none, .obj [("grant_types", .arr [.str "authorization_code", .str "password"])], .obj [], true⟩,
  ⟨1644, .obj [("grant_types", .obj [("subset_of", .arr [.str "authorization_code"])])], .obj [("grant_types", .obj [("superset_of", .arr [.str "authorization_code", .str "refresh_token"]), ("essential", .bool true)])], none, .obj [("grant_types", .arr [.str "authorization_code", .str "password"])], .obj [], true⟩,
  ⟨1645, .obj [("grant_types", .obj [("subset_of", .arr [.str "authorization_code"])])], .obj [("grant_types", .obj [("superset_of", .arr [.str "authorization_code", .str "refresh_token"])])], none, .obj [("grant_types", .arr [.str "authorization_code", .str "password"])], .obj [], true⟩,
  ⟨1646, .obj [("grant_types", .obj [("subset_of", .arr [.str "authorization_code"]), ("essential", .bool true)])], .obj [("grant_types", .obj [("superset_of", .arr [.str "authorization_code", .str "refresh_token"]), ("essential", .bool true)])], none, .obj [("grant_types", .arr [])], .obj [], true⟩,
  ⟨1647, .obj [("grant_types", .obj [("subset_of", .arr [.str "authorization_code"]), ("essential", .bool true)])], .obj [("grant_types", .obj [("superset_of", .arr [.str "authorization_code", .str "refresh_token"])])], none, .obj [("grant_types", .arr [])], .obj [], true⟩,
  ⟨1648, .obj [("grant_types", .obj [("subset_of", .arr [.str "authorization_code"])])], .obj [("grant_types", .obj [("superset_of", .arr [.str "authorization_code", .str "refresh_token"]), ("essential", .bool true)])], none, .obj [("grant_types", .arr [])], .obj [], true⟩,
  ⟨1649, .obj [("grant_types", .obj [("subset_of", .arr [.str "authorization_code"])])], .obj [("grant_types", .obj [("superset_of", .arr [.str "authorization_code", .str "refresh_token"])])], none, .obj [("grant_types", .arr [])], .obj [], true⟩,
  ⟨1650, .obj [("grant_types", .obj [("subset_of", .arr [.str "authorization_code"]), ("essential", .bool true)])], .obj [("grant_types", .obj [("superset_of", .arr [.str "authorization_code", .str "refresh_token"]), ("essential", .bool true)])], none, .obj [], .obj [], true⟩,
  ⟨1651, .obj [("grant_types", .obj [("subset_of", .arr [.str "authorization_code"]), ("essential", .bool true)])], .obj [("grant_types", .obj [("superset_of", .arr [.str "authorization_code", .str "refresh_token"])])], none, .obj [], .obj [], true⟩,
  ⟨1652, .obj [("grant_types", .obj [("subset_of", .arr [.str "authorization_code"])])], .obj [("grant_types", .obj [("superset_of", .arr [.str "authorization_code", .str "refresh_token"]), ("essential", .bool true)])], none, .obj [], .obj [], true⟩,
  ⟨1653, .obj [("grant_types", .obj [("subset_of", .arr [.str "authorization_code"])])], .obj [("grant_types", .obj [("superset_of", .arr [.str "authorization_code", .str "refresh_token"])])], none, .obj [], .obj [], true⟩,
  ⟨1654, .obj [("grant_types", .obj [("superset_of", .arr []), ("essential", .bool true)])], .obj [("grant_types", .obj [("value", .arr [.str "authorization_code"]), ("essential", .bool true)])], some (.obj [("grant_types", .obj [("superset_of", .arr []), ("value", .arr [.str "authorization_code"]), ("essential", .bool true)])]), .obj [("grant_types", .arr [.str "authorization_code"])], .obj [("grant_types", .arr [.str "authorization_code"])], false⟩,
  ⟨1655, .obj [("grant_types", .obj [("superset_of", .arr []), ("essential", .bool true)])], .obj [("grant_types", .obj [("value", .arr [.str "authorization_code"])])], some (.obj [("grant_types", .obj [("superset_of", .arr []), ("value", .arr [.str "authorization_code"]), ("essential", .bool true)])]), .obj [("grant_types", .arr [.str "authorization_code"])], .obj [("grant_types", .arr [.str "authorization_code"])], false⟩,
  ⟨1656, .obj [("grant_types", .obj [("superset_of", .arr [])])], .obj [("grant_types", .obj [("value", .arr [.str "authorization_code"]), ("essential", .bool true)])], some (.obj [("grant_types", .obj [("superset_of", .arr []), ("value", .arr [.str "authorization_code"]), ("essential", .bool true)])]), .obj [("grant_types", .arr [.str "authorization_code"])], .obj [("grant_types", .arr [.str "authorization_code"])], false⟩,
  ⟨1657, .obj [("grant_types", .obj [("superset_of", .arr [])])], .obj [("grant_types", .obj [("value", .arr [.str "authorization_code"])])], some (.obj [("grant_types", .obj [("superset_of", .arr []), ("value", .arr [.str "authorization_code"])])]), .obj [("grant_types", .arr [.str "authorization_code"])], .obj [("grant_types", .arr [.str "authorization_code"])], false⟩,
  ⟨1658, .obj [("grant_types", .obj [("superset_of", .arr []), ("essential", .bool true)])], .obj [("grant_types", .obj [("value", .arr [.str "authorization_code"]), ("essential", .bool true)])], some (.obj [("grant_types", .obj [("superset_of", .arr []), ("value", .arr [.str "authorization_code"]), ("essential", .bool true)])]), .obj [("grant_types", .arr [.str "password"])], .obj [("grant_types", .arr [.str "authorization_code"])], false⟩,
  ⟨1659, .obj [("grant_types", .obj [("superset_of", .arr []), ("essential", .bool true)])], .obj [("grant_types", .obj [("value", .arr [.str "authorization_code"])])], some (.obj [("grant_types", .obj [("superset_of", .arr []), ("value", .arr [.str "authorization_code"]), ("essential", .bool true)])]), .obj [("grant_types", .arr [.str "password"])], .obj [("grant_types", .arr [.str "authorization_code"])], false⟩,
  ⟨1660, .obj [("grant_types", .obj [("superset_of", .arr [])])], .obj [("grant_types", .obj [("value", .arr [.str "authorization_code"]), ("essential", .bool true)])], some (.obj [("grant_types", .obj [("superset_of", .arr []), ("value", .arr [.str "authorization_code"]), ("essential", .bool true)])]), .obj [("grant_types", .arr [.str "password"])], .obj [("grant_types", .arr [.str "authorization_code"])], false⟩,
  ⟨1661, .obj [("grant_types", .obj [("superset_of", .arr [])])], .obj [("grant_types", .obj [("value", .arr [.str "authorization_code"])])], some (.obj [("grant_types", .obj [("superset_of", .arr []), ("value", .arr [.str "authorization_code"])])]), .obj [("grant_types", .arr [.str "password"])], .obj [("grant_types", .arr [.str "authorization_code"])], false⟩,
  ⟨1662, .obj [("grant_types", .obj [("superset_of", .arr []), ("essential", .bool true)])], .obj [("grant_types", .obj [("value", .arr [.str "authorization_code"]), ("essential", .bool true)])], some (.obj [("grant_types", .obj [("superset_of", .arr []), ("value", .arr [.str "authorization_code"]), ("essential", .bool true)])]), .obj [("grant_types", .arr [.str "authorization_code", .str "refresh_token"])], .obj [("grant_types", .arr [.str "authorization_code"])], false⟩,
  ⟨1663, .obj [("grant_types", .obj [("superset_of", .arr []), ("essential", .bool true)])], .obj [("grant_types", .obj [("value", .arr [.str "authorization_code"])])], some (.obj [("grant_types", .obj [("superset_of", .arr []), ("value", .arr [.str "authorization_code"]), ("essential", .bool true)])]), .obj [("grant_types", .arr [.str "authorization_code", .str "refresh_token"])], .obj [("grant_types", .arr [.str "authorization_code"])], false⟩,
  ⟨1664, .obj [("grant_types", .obj [("superset_of", .arr [])])], .obj [("grant_types", .obj [("value", .arr [.str "authorization_code"]), ("essential", .bool true)])], some (.obj [("grant_types", .obj [("superset_of", .arr []), ("value", .arr [.str "authorization_code"]), ("essential", .bool true)])]), .obj [("grant_types", .arr [.str "authorization_code", .str "refresh_token"])], .obj [("grant_types", .arr [.str "authorization_code"])], false⟩,
  ⟨1665, .obj [("grant_types", .obj [("superset_of", .arr [])])], .obj [("grant_types", .obj [("value", .arr [.str "authorization_code"])])], some (.obj [("grant_types", .obj [("superset_of", .arr []), ("value", .arr [.str "authorization_code"])])]), .obj [("grant_types", .arr [.str "authorization_code", .str "refresh_token"])], .obj [("grant_types", .arr [.str "authorization_code"])], false⟩,
  ⟨1666, .obj [("grant_types", .obj [("superset_of", .arr []), ("essential", .bool true)])], .obj [("grant_types", .obj [("value", .arr [.str "authorization_code"]), ("essential", .bool true)])], some (.obj [("grant_types", .obj [("superset_of", .arr []), ("value", .arr [.str "authorization_code"]), ("essential", .bool true)])]), .obj [("grant_types", .arr [.str "authorization_code", .str "password"])], .obj [("grant_types", .arr [.str "authorization_code"])], false⟩,
  ⟨1667, .obj [("grant_types", .obj [("superset_of", .arr []), ("essential", .bool true)])], .obj [("grant_types", .obj [("value", .arr [.str "authorization_code"])])], some (.obj [("grant_types", .obj [("superset_of", .arr []), ("value", .arr [.str "authorization_code"]), ("essential", .bool true)])]), .obj [("grant_types", .arr [.str "authorization_code", .str "password"])], .obj [("grant_types", .arr [.str "authorization_code"])], false⟩,
  ⟨1668, .obj [("grant_types", .obj [("superset_of", .arr [])])], .obj [("grant_types", .obj [("value", .arr [.str "authorization_code"]), ("essential", .bool true)])], some (.obj [("grant_types", .obj [("superset_of", .arr []), ("value", .arr [.str "authorization_code"]), ("essential", .bool true)])]), .obj [("grant_types", .arr [.str "authorization_code", .str "password"])], .obj [("grant_types", .arr [.str "authorization_code"])], false⟩,
  ⟨1669, .obj [("grant_types", .obj [("superset_of", .arr [])])], .obj [("grant_types", .obj [("value", .arr [.str "authorization_code"])])], some (.obj [("grant_types", .obj [("superset_of", .arr []), ("value", .arr [.str "authorization_code"])])]), .obj [("grant_types", .arr [.str "authorization_code", .str "password"])], .obj [("grant_types", .arr [.str "authorization_code"])], false⟩,
  ⟨1670, .obj [("grant_types", .obj [("superset_of", .arr []), ("essential", .bool true)])], .obj [("grant_types", .obj [("value", .arr [.str "authorization_code"]), ("essential", .bool true)])], some (.obj [("grant_types", .obj [("superset_of", .arr []), ("value", .arr [.str "authorization_code"]), ("essential", .bool true)])]), .obj [("grant_types", .arr [])], .obj [("grant_types", .arr [.str "authorization_code"])], false⟩,
  ⟨1671, .obj [("grant_types", .obj [("superset_of", .arr []), ("essential", .bool true)])], .obj [("grant_types", .obj [("value", .arr [.str "authorization_code"])])], some (.obj [("grant_types", .obj [("superset_of", .arr []), ("value", .arr [.str "authorization_code"]), ("essential", .bool true)])]), .obj [("grant_types", .arr [])], .obj [("grant_types", .arr [.str "authorization_code"])], false⟩,
  ⟨1672, .obj [("grant_types", .obj [("superset_of", .arr [])])], .obj [("grant_types", .obj [("value", .arr [.str "authorization_code"]), ("essential", .bool true)])], some (.obj [("grant_types", .obj [("superset_of", .arr []), ("value", .arr [.str "authorization_code"]), ("essential", .bool true)])]), .obj [("grant_types", .arr [])], .obj [("grant_types", .arr [.str "authorization_code"])], false⟩,
  ⟨1673, .obj [("grant_types", .obj [("superset_of", .arr [])])], .obj [("grant_types", .obj [("value", .arr [.str "authorization_code"])])], some (.obj [("grant_types", .obj [("superset_of", .arr []), ("value", .arr [.str "authorization_code"])])]), .obj [("grant_types", .arr [])], .obj [("grant_types", .arr [.str "authorization_code"])], false⟩,
  ⟨1674, .obj [("grant_types", .obj [("superset_of", .arr []), ("essential", .bool true)])], .obj [("grant_types", .obj [("value", .arr [.str "authorization_code"]), ("essential", .bool true)])], some (.obj [("grant_types", .obj [("superset_of", .arr []), ("value", .arr [.str "authorization_code"]), ("essential", .bool true)])]), .obj [], .obj [("grant_types", .arr [.str "authorization_code"])], false⟩,
  ⟨1675, .obj [("grant_types", .obj [("superset_of", .arr []), ("essential", .bool true)])], .obj [("grant_types", .obj [("value", .arr [.str "authorization_code"])])], some (.obj [("grant_types", .obj [("superset_of", .arr []), ("value", .arr [.str "authorization_code"]), ("essential", .bool true)])]), .obj [], .obj [("grant_types", .arr [.str "authorization_code"])], false⟩,
  ⟨1676, .obj [("grant_types", .obj [("superset_of", .arr [])])], .obj [("grant_types", .obj [("value", .arr [.str "authorization_code"]), ("essential", .bool true)])], some (.obj [("grant_types", .obj [("superset_of", .arr []), ("value", .arr [.str "authorization_code"]), ("essential", .bool true)])]), .obj [], .obj [("grant_types", .arr [.str "authorization_code"])], false⟩,
  ⟨1677, .obj [("grant_types", .obj [("superset_of", .arr [])])], .obj [("grant_types", .obj [("value", .arr [.str "authorization_code"])])], some (.obj [("grant_types", .obj [("superset_of", .arr []), ("value", .arr [.str "authorization_code"])])]), .obj [], .obj [("grant_types", .arr [.str "authorization_code"])], false⟩,
  ⟨1678, .obj [("grant_types", .obj [("superset_of", .arr []), ("essential", .bool true)])], .obj [("grant_types", .obj [("value", .arr [.str "authorization_code", .str "refresh_token"]), ("essential", .bool true)])], some (.obj [("grant_types", .obj [("superset_of", .arr []), ("value", .arr [.str "authorization_code", .str "refresh_token"]), ("essential", .bool true)])]), .obj [("grant_types", .arr [.str "authorization_code"])], .obj [("grant_types", .arr [.str "authorization_code", .str "refresh_token"])], false⟩,
  ⟨1679, .obj [("grant_types", .obj [("superset_of", .arr []), ("essential", .bool true)])], .obj [("grant_types", .obj [("value", .arr [.str "authorization_code", .str "refresh_token"])])], some (.obj [("grant_types", .obj [("superset_of", .arr []), ("value", .arr [.str "authorization_code", .str "refresh_token"]), ("essential", .bool true)])]), .obj [("grant_types", .arr [.str "authorization_code"])], .obj [("grant_types", .arr [.str "authorization_code", .str "refresh_token"])], false⟩,
  ⟨1680, .obj [("grant_types", .obj [("superset_of", .arr [])])], .obj [("grant_types", .obj [("value", .arr [.str "authorization_code", .str "refresh_token"]), ("essential", .bool true)])], some (.obj [("grant_types", .obj [("superset_of", .arr []), ("value", .arr [.str "authorization_code", .str "refresh_token"]), ("essential", .bool true)])]), .obj [("grant_types", .arr [.str "authorization_code"])], .obj [("grant_types", .arr [.str "authorization_code", .str "refresh_token"])], false⟩,
  ⟨1681, .obj [("grant_types", .obj [("superset_of", .arr [])])], .obj [("grant_types", .obj [("value", .arr [.str "authorization_code", .str "refresh_token"])])], some (.obj [("grant_types", .obj [("superset_of", .arr []), ("value", .arr [.str "authorization_code", .str "refresh_token"])])]), .obj [("grant_types", .arr [.str "authorization_code"])], .obj [("grant_types", .arr [.str "authorization_code", .str "refresh_token"])], false⟩,
  ⟨1682, .obj [("grant_types", .obj [("superset_of", .arr []), ("essential", .bool true)])], .obj [("grant_types", .obj [("value", .arr [.str "authorization_code", .str "refresh_token"]), ("essential", .bool true)])], some (.obj [("grant_types", .obj [("superset_of", .arr []), ("value", .arr [.str "authorization_code", .str "refresh_token"]), ("essential", .bool true)])]), .obj [("grant_types", .arr [.str "password"])], .obj [("grant_types", .arr [.str "authorization_code", .str "refresh_token"])], false⟩,
  ⟨1683, .obj [("grant_types", .obj [("superset_of", .arr []), ("essential", .bool true)])], .obj [("grant_types", .obj [("value", .arr [.str "authorization_code", .str "refresh_token"])])], some (.obj [("grant_types", .obj [("superset_of", .arr []), ("value", .arr [.str "authorization_code", .str "refresh_token"]), ("essential", .bool true)])]), .obj [("grant_types", .arr [.str "password"])], .obj [("grant_types", .arr [.str "authorization_code", .str "refresh_token"])], false⟩,
  ⟨1684, .obj [("grant_types", .obj [("superset_of", .arr [])])], .obj [("grant_types", .obj [("value", .arr [.str "authorization_code", .str "refresh_token"]), ("essential", .bool true)])], some (.obj [("grant_types", .obj [("superset_of", .arr []), ("value", .arr [.str "authorization_code", .str "refresh_token"]), ("essential", .bool true)])]), .obj [("grant_types", .arr [.str "password"])], .obj [("grant_types", .arr [.str "authorization_code", .str "refresh_token"])], false⟩,
  ⟨1685, .obj [("grant_types", .obj [("superset_of", .arr [])])], .obj [("grant_types", .obj [("value", .arr [.str "authorization_code", .str "refresh_token"])])], some (.obj [("grant_types", .obj [("superset_of", .arr []), ("value", .arr [.str "authorization_code", .str "refresh_token"])])]), .obj [("grant_types", .arr [.str "password"])], .obj [("grant_types", .arr [.str "authorization_code", .str "refresh_token"])], false⟩,
  ⟨1686, .obj [("grant_types", .obj [("superset_of", .arr []), ("essential", .bool true)])], .obj [("grant_types", .obj [("value", .arr [.str "authorization_code", .str "refresh_token"]), ("essential", .bool true)])], some (.obj [("grant_types", .obj [("superset_of", .arr []), ("value", .arr [.str "authorization_code", .str "refresh_token"]), ("essential", .bool true)])]), .obj [("grant_types", .arr [.str "authorization_code", .str "refresh_token"])], .obj [("grant_types", .arr [.str "authorization_code", .str "refresh_token"])], false⟩,
  ⟨1687, .obj [("grant_types", .obj [("superset_of", .arr []), ("essential", .bool true)])], .obj [("grant_types", .obj [("value", .arr [.str "authorization_code", .str "refresh_token"])])], some (.obj [("grant_types", .obj [("superset_of", .arr []), ("value", .arr [.str "authorization_code", .str "refresh_token"]), ("essential", .bool true)])]), .obj [("grant_types", .arr [.str "authorization_code", .str "refresh_token"])], .obj [("grant_types", .arr [.str "authorization_code", .str "refresh_token"])], false⟩,
  ⟨1688, .obj [("grant_types", .obj [("superset_of", .arr [])])], .obj [("grant_types", .obj [("value", .arr [.str "authorization_code", .str "refresh_token"]), ("essential", .bool true)])], some (.obj [("grant_types", .obj [("superset_of", .arr []), ("value", .arr [.str "authorization_code", .str "refresh_token"]), ("essential", .bool true)])]), .obj [("grant_types", .arr [.str "authorization_code", .str "refresh_token"])], .obj [("grant_types", .arr [.str "authorization_code", .str "refresh_token"])], false⟩,
  ⟨1689, .obj [("grant_types", .obj [("superset_of", .arr [])])], .obj [("grant_types", .obj [("value", .arr [.str "authorization_code", .str "refresh_token"])])], some (.obj [("grant_types", .obj [("superset_of", .arr []), ("value", .arr [.str "authorization_code", .str "refresh_token"])])]), .obj [("grant_types", .arr [.str "authorization_code", .str "refresh_token"])], .obj [("grant_types", .arr [.str "authorization_code", .str "refresh_token"])], false⟩,
  ⟨1690, .obj [("grant_types", .obj [("superset_of", .arr []), ("essential", .bool true)])], .obj [("grant_types", .obj [("value", .arr [.str "authorization_code", .str "refresh_token"]), ("essential", .bool true)])], some (.obj [("grant_types", .obj [("superset_of", .arr []), ("value", .arr [.str "authorization_code", .str "refresh_token"]), ("essential", .bool true)])]), .obj [("grant_types", .arr [.str "authorization_code", .str "password"])], .obj [("grant_types", .arr [.str "authorization_code", .str "refresh_token"])], false⟩,
  ⟨1691, .obj [("grant_types", .obj [("superset_of", .arr []), ("essential", .bool true)])], .obj [("grant_types", .obj [("value", .arr [.str "authorization_code", .str "refresh_token"])])], some (.obj [("grant_types", .obj [("superset_of", .arr []), ("value", .arr [.str "authorization_code", .str "refresh_token"]), ("essential", .bool true)])]), .obj [("grant_types", .arr [.str "authorization_code", .str "password"])], .obj [("grant_types", .arr [.str "authorization_code", .str "refresh_token"])], false⟩,
  ⟨1692, .obj [("grant_types", .obj [("superset_of", .arr [])])], .obj [("grant_types", .obj [("value", .arr [.str "authorization_code", .str "refresh_token"]), ("essential", .bool true)])], some (.obj [("grant_types", .obj [("superset_of", .arr []), ("value", .arr [.str "authorization_code", .str "refresh_token"]), ("essential", .bool true)])]), .obj [("grant_types", .arr [.str "authorization_code", .str "password"])], .obj [("grant_types", .arr [.str "authorization_code", .str "refresh_token"])], false⟩,
  ⟨1693, .obj [("grant_types", .obj [("superset_of", .arr [])])], .obj [("grant_types", .obj [("value", .arr [.str "authorization_code", .str "refresh_token"])])], some (.obj [("grant_types", .obj [("superset_of", .arr []), ("value", .arr [.str "authorization_code", .str "refresh_token"])])]), .obj [("grant_types", .arr [.str "authorization_code", .str "password"])], .obj [("grant_types", .arr [.str "authorization_code", .str "refresh_token"])], false⟩,
  ⟨1694, .obj [("grant_types", .obj [("superset_of", .arr []), ("essential", .bool true)])], .obj [("grant_types", .obj [("value", .arr [.str "authorization_code", .str "refresh_token"]), ("essential", .bool true)])], some (.obj [("grant_types", .obj [("superset_of", .arr []), ("value", .arr [.str "authorization_code", .str "refresh_token"]), ("essential", .bool true)])]), .obj [("grant_types", .arr [])], .obj [("grant_types", .arr [.str "authorization_code", .str "refresh_token"])], false⟩,
  ⟨1695, .obj [("grant_types", .obj [("superset_of", .arr []), ("essential", .bool true)])], .obj [("grant_types", .obj [("value", .arr [.str "authorization_code", .str "refresh_token"])])], some (.obj [("grant_types", .obj [("superset_of", .arr []), ("value", .arr [.str "authorization_code", .str "refresh_token"]), ("essential", .bool true)])]), .obj [("grant_types", .arr [])], .obj [("grant_types", .arr [.str "authorization_code", .str "refresh_token"])], false⟩,
  ⟨1696, .obj [("grant_types", .obj [("superset_of", .arr [])])], .obj [("grant_types", .obj [("value", .arr [.str "authorization_code", .str "refresh_token"]), ("essential", .bool true)])], some (.obj [("grant_types", .obj [("superset_of", .arr []), ("value", .arr [.str "authorization_code", .str "refresh_token"]), ("essential", .bool true)])]), .obj [("grant_types", .arr [])], .obj [("grant_types", .arr [.str "authorization_code", .str "refresh_token"])], false⟩,
  ⟨1697, .obj [("grant_types", .obj [("superset_of", .arr [])])], .obj [("grant_types", .obj [("value", .arr [.str "authorization_code", .str "refresh_token"])])], some (.obj [("grant_types", .obj [("superset_of", .arr []), ("value", .arr [.str "authorization_code", .str "refresh_token"])])]), .obj [("grant_types", .arr [])], .obj [("grant_types", .arr [.str "authorization_code", .str "refresh_token"])], false⟩,
  ⟨1698, .obj [("grant_types", .obj [("superset_of", .arr []), ("essential", .bool true)])], .obj [("grant_types", .obj [("value", .arr [.str "authorization_code", .str "refresh_token"]), ("essential", .bool true)])], some (.obj [("grant_types", .obj [("superset_of", .arr []), ("value", .arr [.str "authorization_code", .str "refresh_token"]), ("essential", .bool true)])]), .obj [], .obj [("grant_types", .arr [.str "authorization_code", .str "refresh_token"])], false⟩,
  ⟨1699, .obj [("grant_types", .obj [("superset_of", .arr []), ("essential", .bool true)])], .obj [("grant_types", .obj [("value", .arr [.str "authorization_code", .str "refresh_token"])])], some (.obj [("grant_types", .obj [("superset_of", .arr []), ("value", .arr [.str "authorization_code", .str "refresh_token"]), ("essential", .bool true)])]), .obj [], .obj [("grant_types", .arr [.str "authorization_code", .str "refresh_token"])], false⟩,
  ⟨1700, .obj [("grant_types", .obj [("superset_of", .arr [])])], .obj [("grant_types", .obj [("value", .arr [.str "authorization_code", .str "refresh_token"]), ("essential", .bool true)])], some (.obj [("grant_types", .obj [("superset_of", .arr []), ("value", .arr [.str "authorization_code", .str "refresh_token"]), ("essential", .bool true)])]), .obj [], .obj [("grant_types", .arr [.str "authorization_code", .str "refresh_token"])], false⟩,
  ⟨1701, .obj [("grant_types", .obj [("superset_of", .arr [])])], .obj [("grant_types", .obj [("value", .arr [.str "authorization_code", .str "refresh_token"])])], some (.obj [("grant_types", .obj [("superset_of", .arr []), ("value", .arr [.str "authorization_code", .str "refresh_token"])])]), .obj [], .obj [("grant_types", .arr [.str "authorization_code", .str "refresh_token"])], false⟩,
  ⟨1702, .obj [("grant_types", .obj [("superset_of", .arr [.str "authorization_code"]), ("essential", .bool true)])], .obj [("grant_types", .obj [("value", .arr [.str "authorization_code", .str "refresh_token"]), ("essential", .bool true)])], some (.obj [("grant_types", .obj [("superset_of", .arr [.str "authorization_code"]), ("value", .arr [.str "authorization_code", .str "refresh_token"]), ("essential", .bool true)])]), .obj [("grant_types", .arr [.str "authorization_code"])], .obj [("grant_types", .arr [.str "authorization_code", .str "refresh_token"])], false⟩,
  ⟨1703, .obj [("grant_types", .obj [("superset_of", .arr [.str "authorization_code"]), ("essential", .bool true)])], .obj [("grant_types", .obj [("value", .arr [.str "authorization_code", .str "refresh_token"])])], some (.obj [("grant_types", .obj [("superset_of", .arr [.str "authorization_code"]), ("value", .arr [.str "authorization_code", .str "refresh_token"]), ("essential", .bool true)])]), .obj [("grant_types", .arr [.str "authorization_code"])], .obj [("grant_types", .arr [.str "authorization_code", .str "refresh_token"])], false⟩,
  ⟨1704, .obj [("grant_types", .obj [("superset_of", .arr [.str "authorization_code"])])], .obj [("grant_types", .obj [("value", .arr [.str "authorization_code", .str "refresh_token"]), ("essential", .bool true)])], some (.obj [("grant_types", .obj [("superset_of", .arr [.str "authorization_code"]), ("value", .arr [.str "authorization_code", .str "refresh_token"]), ("essential", .bool true)])]), .obj [("grant_types", .arr [.str "authorization_code"])], .obj [("grant_types", .arr [.str "authorization_code", .str "refresh_token"])], false⟩,
  ⟨1705, .obj [("grant_types", .obj [("superset_of", .arr [.str "authorization_code"])])], .obj [("grant_types", .obj [("value", .arr [.str "authorization_code", .str "refresh_token"])])], some (.obj [("grant_types", .obj [("superset_of", .arr [.str "authorization_code"]), ("value", .arr [.str "authorization_code", .str "refresh_token"])])]), .obj [("grant_types", .arr [.str "authorization_code"])], .obj [("grant_types", .arr [.str "authorization_code", .str "refresh_token"])], false⟩,
  ⟨1706, .obj [("grant_types", .obj [("superset_of", .arr [.str "authorization_code"]), ("essential", .bool true)])], .obj [("grant_types", .obj [("value", .arr [.str "authorization_code", .str "refresh_token"]), ("essential", .bool true)])], some (.obj [("grant_types", .obj [("superset_of", .arr [.str "authorization_code"]), ("value", .arr [.str "authorization_code", .str "refresh_token"]), ("essential", .bool true)])]), .obj [("grant_types", .arr [.str "password"])], .obj [("grant_types", .arr [.str "authorization_code", .str "refresh_token"])], false⟩,
  ⟨1707, .obj [("grant_types", .obj [("superset_of", .arr [.str "authorization_code"]), ("essential", .bool true)])], .obj [("grant_types", .obj [("value", .arr [.str "authorization_code", .str "refresh_token"])])], some (.obj [("grant_types", .obj [("superset_of", .arr [.str "authorization_code"]), ("value", .arr [.str "authorization_code", .str "refresh_token"]), ("essential", .bool true)])]), .obj [("grant_types", .arr [.str "password"])], .obj [("grant_types", .arr [.str "authorization_code", .str "refresh_token"])], false⟩,
  ⟨1708, .obj [("grant_types", .obj [("superset_of", .arr [.str "authorization_code"])])], .obj [("grant_types", .obj [("value", .arr [.str "authorization_code", .str "refresh_token"]), ("essential", .bool true)])], some (.obj [("grant_types", .obj [("superset_of", .arr [.str "authorization_code"]), ("value", .arr [.str "authorization_code", .str "refresh_token"]), ("essential", .bool true)])]), .obj [("grant_types", .arr [.str "password"])], .obj [("grant_types", .arr [.str "authorization_code", .str "refresh_token"])], false⟩,
  ⟨1709, .obj [("grant_types", .obj [("superset_of", .arr [.str "authorization_code"])])], .obj [("grant_types", .obj [("value", .arr [.str "authorization_code", .str "refresh_token"])])], some (.obj [("grant_types", .obj [("superset_of", .arr [.str "authorization_code"]), ("value", .arr [.str "authorization_code", .str "refresh_token"])])]), .obj [("grant_types", .arr [.str "password"])], .obj [("grant_types", .arr [.str "authorization_code", .str "refresh_token"])], false⟩,
  ⟨1710, .obj [("grant_types", .obj [("superset_of", .arr [.str "authorization_code"]), ("essential", .bool true)])], .obj [("grant_types", .obj [("value", .arr [.str "authorization_code", .str "refresh_token"]), ("essential", .bool true)])], some (.obj [("grant_types", .obj [("superset_of", .arr [.str "authorization_code"]), ("value", .arr [.str "authorization_code", .str "refresh_token"]), ("essential", .bool true)])]), .obj [("grant_types", .arr [.str "authorization_code", .str "refresh_token"])], .obj [("grant_types", .arr [.str "authorization_code", .str "refresh_token"])], false⟩,
  ⟨1711, .obj [("grant_types", .obj [("superset_of", .arr [.str "authorization_code"]), ("essential", .bool true)])], .obj [("grant_types", .obj [("value", .arr [.str "authorization_code", .str "refresh_token"])])], some (.obj [("grant_types", .obj [("superset_of", .arr [.str "authorization_code"]), ("value", .arr [.str "authorization_code", .str "refresh_token"]), ("essential", .bool true)])]), .obj [("grant_types", .arr [.str "authorization_code", .str "refresh_token"])], .obj [("grant_types", .arr [.str "authorization_code", .str "refresh_token"])], false⟩,
  ⟨1712, .obj [("grant_types", .obj [("superset_of", .arr [.str "authorization_code"])])], .obj [("grant_types", .obj [("value", .arr [.str "authorization_code", .str "refresh_token"]), ("essential", .bool true)])], some (.obj [("grant_types", .obj [("superset_of", .arr [.str "authorization_code"]), ("value", .arr [.str "authorization_code", .str "refresh_token"]), ("essential", .bool true)])]), .obj [("grant_types", .arr [.str "authorization_code", .str "refresh_token"])], .obj [("grant_types", .arr [.str "authorization_code", .str "refresh_token"])], false⟩,
  ⟨1713, .obj [("grant_types", .obj [("superset_of", .arr [.str "authorization_code"])])], .obj [("grant_types", .obj [("value", .arr [.str "authorization_code", .str "refresh_token"])])], some (.obj [("grant_types", .obj [("superset_of", .arr [.str "authorization_code"]), ("value", .arr [.str "authorization_code", .str "refresh_token"])])]), .obj [("grant_types", .arr [.str "authorization_code", .str "refresh_token"])], .obj [("grant_types", .arr [.str "authorization_code", .str "refresh_token"])], false⟩,
  ⟨1714, .obj [("grant_types", .obj [("superset_of", .arr [.str "authorization_code"]), ("essential", .bool true)])], .obj [("grant_types", .obj [("value", .arr [.str "authorization_code", .str "refresh_token"]), ("essential", .bool true)])], some (.obj [("grant_types", .obj [("superset_of", .arr [.str "authorization_code"]), ("value", .arr [.str "authorization_code", .str "refresh_token"]), ("essential", .bool true)])]), .obj [("grant_types", .arr [.str "authorization_code", .str "password"])], .obj [("grant_types", .arr [.str "authorization_code", .str "refresh_token"])], false⟩,
  ⟨1715, .obj [("grant_types", .obj [("superset_of", .arr [.str "authorization_code"]), ("essential", .bool true)])], .obj [("grant_types", .obj [("value", .arr [.str "authorization_code", .str "refresh_token"])])], some (.obj [("grant_types", .obj [("superset_of", .arr [.str "authorization_code"]), ("value", .arr [.str "authorization_code", .str "refresh_token"]), ("essential", .bool true)])]), .obj [("grant_types", .arr [.str "authorization_code", .str "password"])], .obj [("grant_types", .arr [.str "authorization_code", .str "refresh_token"])], false⟩,
  ⟨1716, .obj [("grant_types", .obj [("superset_of", .arr [.str "authorization_code"])])], .obj [("grant_types", .obj [("value", .arr [.str "authorization_code", .str "refresh_token"]), ("essential", .bool true)])], some (.obj [("grant_types", .obj [("superset_of", .arr [.str "authorization_code"]), ("value", .arr [.str "authorization_code", .str "refresh_token"]), ("essential", .bool true)])]), .obj [("grant_types", .arr [.str "authorization_code", .str "password"])], .obj [("grant_types", .arr [.str "authorization_code", .str "refresh_token"])], false⟩,
  ⟨1717, .obj [("grant_types", .obj [("superset_of", .arr [.str "authorization_code"])])], .obj [("grant_types", .obj [("value", .arr [.str "authorization_code", .str "refresh_token"])])], some (.obj [("grant_types", .obj [("superset_of", .arr [.str "authorization_code"]), ("value", .arr [.str "authorization_code", .str "refresh_token"])])]), .obj [("grant_types", .arr [.str "authorization_code", .str "password"])], .obj [("grant_types", .arr [.str "authorization_code", .str "refresh_token"])], false⟩,
  ⟨1718, .obj [("grant_types", .obj [("superset_of", .arr [.str "authorization_code"]), ("essential", .bool true)])], .obj [("grant_types", .obj [("value", .arr [.str "authorization_code", .str "refresh_token"]), ("essential", .bool true)])], some (.obj [("grant_types", .obj [("superset_of", .arr [.str "authorization_code"]), ("value", .arr [.str "authorization_code", .str "refresh_token"]), ("essential", .bool true)])]), .obj [("grant_types", .arr [])], .obj [("grant_types", .arr [.str "authorization_code", .str "refresh_token"])], false⟩,
  ⟨1719, .obj [("grant_types", .obj [("superset_of", .arr [.str "authorization_code"]), ("essential", .bool true)])], .obj [("grant_types", .obj [("value", .arr [.str "authorization_code", .str "refresh_token"])])], some (.obj [("grant_types", .obj [("superset_of", .arr [.str "authorization_code"]), ("value", .arr [.str "authorization_code", .str "refresh_token"]), ("essential", .bool true)])]), .obj [("grant_types", .arr [])], .obj [("grant_types", .arr [.str "authorization_code", .str "refresh_token"])], false⟩,
  ⟨1720, .obj [("grant_types", .obj [("superset_of", .arr [.str "authorization_code"])])], .obj [("grant_types", .obj [("value", .arr [.str "authorization_code", .str "refresh_token"]), ("essential", .bool true)])], some (.obj [("grant_types", .obj [("superset_of", .arr [.str "authorization_code"]), ("value", .arr [.str "authorization_code", .str "refresh_token"]), ("essential", .bool true)])]), .obj [("grant_types", .arr [])], .obj [("grant_types", .arr [.str "authorization_code", .str "refresh_token"])], false⟩,
  ⟨1721, .obj [("grant_types", .obj [("superset_of", .arr [.str "authorization_code"])])], .obj [("grant_types", .obj [("value", .arr [.str "authorization_code", .str "refresh_token"])])], some (.obj [("grant_types", .obj [("superset_of", .arr [.str "authorization_code"]), ("value", .arr [.str "authorization_code", .str "refresh_token"])])]), .obj [("grant_types", .arr [])], .obj [("grant_types", .arr [.str "authorization_code", .str "refresh_token"])], false⟩,
  ⟨1722, .obj [("grant_types", .obj [("superset_of", .arr [.str "authorization_code"]), ("essential", .bool true)])], .obj [("grant_types", .obj [("value", .arr [.str "authorization_code", .str "refresh_token"]), ("essential", .bool true)])], some (.obj [("grant_types", .obj [("superset_of", .arr [.str "authorization_code"]), ("value", .arr [.str "authorization_code", .str "refresh_token"]), ("essential", .bool true)])]), .obj [], .obj [("grant_types", .arr [.str "authorization_code", .str "refresh_token"])], false⟩,
  ⟨1723, .obj [("grant_types", .obj [("superset_of", .arr [.str "authorization_code"]), ("essential", .bool true)])], .obj [("grant_types", .obj [("value", .arr [.str "authorization_code", .str "refresh_token"])])], some (.obj [("grant_types", .obj [("superset_of", .arr [.str "authorization_code"]), ("value", .arr [.str "authorization_code", .str "refresh_token"]), ("essential", .bool true)])]), .obj [], .obj [("grant_types", .arr [.str "authorization_code", .str "refresh_token"])], false⟩,
  ⟨1724, .obj [("grant_types", .obj [("superset_of", .arr [.str "authorization_code"])])], .obj [("grant_types", .obj [("value", .arr [.str "authorization_code", .str "refresh_token"]), ("essential", .bool true)])], some (.obj [("grant_types", .obj [("superset_of", .arr [.str "authorization_code"]), ("value", .arr [.str "authorization_code", .str "refresh_token"]), ("essential", .bool true)])]), .obj [], .obj [("grant_types", .arr [.str "authorization_code", .str "refresh_token"])], false⟩,
  ⟨1725, .obj [("grant_types", .obj [("superset_of", .arr [.str "authorization_code"])])], .obj [("grant_types", .obj [("value", .arr [.str "authorization_code", .str "refresh_token"])])], some (.obj [("grant_types", .obj [("superset_of", .arr [.str "authorization_code"]), ("value", .arr [.str "authorization_code", .str "refresh_token"])])]), .obj [], .obj [("grant_types", .arr [.str "authorization_code", .str "refresh_token"])], false⟩,
  ⟨1726, .obj [("grant_types", .obj [("superset_of", .arr []), ("essential", .bool true)])], .obj [("grant_types", .obj [("add", .arr [.str "authorization_code"]), ("essential", .bool true)])], some (.obj [("grant_types", .obj [("add", .arr [.str "authorization_code"]), ("superset_of", .arr []), ("essential", .bool true)])]), .obj [("grant_types", .arr [.str "authorization_code"])], .obj [("grant_types", .arr [.str "authorization_code"])], false⟩,
  ⟨1727, .obj [("grant_types", .obj [("superset_of", .arr []), ("essential", .bool true)])], .obj [("grant_types", .obj [("add", .arr [.str "authorization_code"])])], some (.obj [("grant_types", .obj [("add", .arr [.str "authorization_code"]), ("superset_of", .arr []), ("essential", .bool true)])]), .obj [("grant_types", .arr [.str "authorization_code"])], .obj [("grant_types", .arr [.str "authorization_code"])], false⟩,
  ⟨1728, .obj [("grant_types", .obj [("superset_of", .arr [])])], .obj [("grant_types", .obj [("add", .arr [.str "authorization_code"]), ("essential", .bool true)])], some (.obj [("grant_types", .obj [("add", .arr [.str "authorization_code"]), ("superset_of", .arr []), ("essential", .bool true)])]), .obj [("grant_types", .arr [.str "authorization_code"])], .obj [("grant_types", .arr [.str "authorization_code"])], false⟩,
  ⟨1729, .obj [("grant_types", .obj [("superset_of", .arr [])])], .obj [("grant_types", .obj [("add", .arr [.str "authorization_code"])])], some (.obj [("grant_types", .obj [("add", .arr [.str "authorization_code"]), ("superset_of", .arr [])])]), .obj [("grant_types", .arr [.str "authorization_code"])], .obj [("grant_types", .arr [.str "authorization_code"])], false⟩,
  ⟨1730, .obj [("grant_types", .obj [("superset_of", .arr []), ("essential", .bool true)])], .obj [("grant_types", .obj [("add", .arr [.str "authorization_code"]), ("essential", .bool true)])], some (.obj [("grant_types", .obj [("add", .arr [.str "authorization_code"]), ("superset_of", .arr []), ("essential", .bool true)])]), .obj [("grant_types", .arr [.str "password"])], .obj [("grant_types", .arr [.str "password", .str "authorization_code"])], false⟩,
  ⟨1731, .obj [("grant_types", .obj [("superset_of", .arr []), ("essential", .bool true)])], .obj [("grant_types", .obj [("add", .arr [.str "authorization_code"])])], some (.obj [("grant_types", .obj [("add", .arr [.str "authorization_code"]), ("superset_of", .arr []), ("essential", .bool true)])]), .obj [("grant_types", .arr [.str "password"])], .obj [("grant_types", .arr [.str "password", .str "authorization_code"])], false⟩,
  ⟨1732, .obj [("grant_types", .obj [("superset_of", .arr [])])], .obj [("grant_types", .obj [("add", .arr [.str "authorization_code"]), ("essential", .bool true)])], some (.obj [("grant_types", .obj [("add", .arr [.str "authorization_code"]), ("superset_of", .arr []), ("essential", .bool true)])]), .obj [("grant_types", .arr [.str "password"])], .obj [("grant_types", .arr [.str "password", .str "authorization_code"])], false⟩,
  ⟨1733, .obj [("grant_types", .obj [("superset_of", .arr [])])], .obj [("grant_types", .obj [("add", .arr [.str "authorization_code"])])], some (.obj [("grant_types", .obj [("add", .arr [.str "authorization_code"]), ("superset_of", .arr [])])]), .obj [("grant_types", .arr [.str "password"])], .obj [("grant_types", .arr [.str "password", .str "authorization_code"])], false⟩,
  ⟨1734, .obj [("grant_types", .obj [("superset_of", .arr []), ("essential", .bool true)])], .obj [("grant_types", .obj [("add", .arr [.str "authorization_code"]), ("essential", .bool true)])], some (.obj [("grant_types", .obj [("add", .arr [.str "authorization_code"]), ("superset_of", .arr []), ("essential", .bool true)])]), .obj [("grant_types", .arr [.str "authorization_code", .str "refresh_token"])], .obj [("grant_types", .arr [.str "authorization_code", .str "refresh_token"])], false⟩,
  ⟨1735, .obj [("grant_types", .obj [("superset_of", .arr []), ("essential", .bool true)])], .obj [("grant_types", .obj [("add", .arr [.str "authorization_code"])])], some (.obj [("grant_types", .obj [("add", .arr [.str "authorization_code"]), ("superset_of", .arr []), ("essential", .bool true)])]), .obj [("grant_types", .arr [.str "authorization_code", .str "refresh_token"])], .obj [("grant_types", .arr [.str "authorization_code", .str "refresh_token"])], false⟩,
  ⟨1736, .obj [("grant_types", .obj [("superset_of", .arr [])])], .obj [("grant_types", .obj [("add", .arr [.str "authorization_code"]), ("essential", .bool true)])], some (.obj [("grant_types", .obj [("add", .arr [.str "authorization_code"]), ("superset_of", .arr []), ("essential", .bool true)])]), .obj [("grant_types", .arr [.str "authorization_code", .str "refresh_token"])], .obj [("grant_types", .arr [.str "authorization_code", .str "refresh_token"])], false⟩,
  ⟨1737, .obj [("grant_types", .obj [("superset_of", .arr [])])], .obj [("grant_types", .obj [("add", .arr [.str "authorization_code"])])], some (.obj [("grant_types", .obj [("add", .arr [.str "authorization_code"]), ("superset_of", .arr [])])]), .obj [("grant_types", .arr [.str "authorization_code", .str "refresh_token"])], .obj [("grant_types", .arr [.str "authorization_code", .str "refresh_token"])], false⟩,
  ⟨1738, .obj [("grant_types", .obj [("superset_of", .arr []), ("essential", .bool true)])], .obj [("grant_types", .obj [("add", .arr [.str "authorization_code"]), ("essential", .bool true)])], some (.obj [("grant_types", .obj [("add", .arr [.str "authorization_code"]), ("superset_of", .arr []), ("essential", .bool true)])]), .obj [("grant_types", .arr [.str "authorization_code", .str "password"])], .obj [("grant_types", .arr [.str "authorization_code", .str "password"])], false⟩,
  ⟨1739, .obj [("grant_types", .obj [("superset_of", .arr []), ("essential", .bool true)])], .obj [("grant_types", .obj [("add", .arr [.str "authorization_code"])])], some (.obj [("grant_types", .obj [("add", .arr [.str "authorization_code"]), ("superset_of", .arr []), ("essential", .bool true)])]), .obj [("grant_types", .arr [.str "authorization_code", .str "password"])], .obj [("grant_types", .arr [.str "authorization_code", .str "password"])], false⟩,
  ⟨1740, .obj [("grant_types", .obj [("superset_of", .arr [])])], .obj [("grant_types", .obj [("add", .arr [.str "authorization_code"]), ("essential", .bool true)])], some (.obj [("grant_types", .obj [("add", .arr [.str "authorization_code"]), ("superset_of", .arr []), ("essential", .bool true)])]), .obj [("grant_types", .arr [.str "authorization_code", .str "password"])], .obj [("grant_types", .arr [.str "authorization_code", .str "password"])], false⟩,
  ⟨1741, .obj [("grant_types", .obj [("superset_of", .arr [])])], .obj [("grant_types", .obj [("add", .arr [.str "authorization_code"])])], some (.obj [("grant_types", .obj [("add", .arr [.str "authorization_code"]), ("superset_of", .arr [])])]), .obj [("grant_types", .arr [.str "authorization_code", .str "password"])], .obj [("grant_types", .arr [.str "authorization_code", .str "password"])], false⟩,
  ⟨1742, .obj [("grant_types", .obj [("superset_of", .arr []), ("essential", .bool true)])], .obj [("grant_types", .obj [("add", .arr [.str "authorization_code"]), ("essential", .bool true)])], some (.obj [("grant_types", .obj [("add", .arr [.str "authorization_code"]), ("superset_of", .arr []), ("essential", .bool true)])]), .obj [("grant_types", .arr [])], .obj [("grant_types", .arr [.str "authorization_code"])], false⟩,
  ⟨1743, .obj [("grant_types", .obj [("superset_of", .arr []), ("essential", .bool true)])], .obj [("grant_types", .obj [("add", .arr [.str "authorization_code"])])], some (.obj [("grant_types", .obj [("add", .arr [.str "authorization_code"]), ("superset_of", .arr []), ("essential", .bool true)])]), .obj [("grant_types", .arr [])], .obj [("grant_types", .arr [.str "authorization_code"])], false⟩,
  ⟨1744, .obj [("grant_types", .obj [("superset_of", .arr [])])], .obj [("grant_types", .obj [("add", .arr [.str "authorization_code"]), ("essential", .bool true)])], some (.obj [("grant_types", .obj [("add", .arr [.str "authorization_code"]), ("superset_of", .arr []), ("essential", .bool true)])]), .obj [("grant_types", .arr [])], .obj [("grant_types", .arr [.str "authorization_code"])], false⟩,
  ⟨1745, .obj [("grant_types", .obj [("superset_of", .arr [])])], .obj [("grant_types", .obj [("add", .arr [.str "authorization_code"])])], some (.obj [("grant_types", .obj [("add", .arr [.str "authorization_code"]), ("superset_of", .arr [])])]), .obj [("grant_types", .arr [])], .obj [("grant_types", .arr [.str "authorization_code"])], false⟩,
  ⟨1746, .obj [("grant_types", .obj [("superset_of", .arr []), ("essential", .bool true)])], .obj [("grant_types", .obj [("add", .arr [.str "authorization_code"]), ("essential", .bool true)])], some (.obj [("grant_types", .obj [("add", .arr [.str "authorization_code"]), ("superset_of", .arr []), ("essential", .bool true)])]), .obj [], .obj [("grant_types", .arr [.str "authorization_code"])], false⟩,
  ⟨1747, .obj [("grant_types", .obj [("superset_of", .arr []), ("essential", .bool true)])], .obj [("grant_types", .obj [("add", .arr [.str "authorization_code"])])], some (.obj [("grant_types", .obj [("add", .arr [.str "authorization_code"]), ("superset_of", .arr []), ("essential", .bool true)])]), .obj [], .obj [("grant_types", .arr [.str "authorization_code"])], false⟩,
  ⟨1748, .obj [("grant_types", .obj [("superset_of", .arr [])])], .obj [("grant_types", .obj [("add", .arr [.str "authorization_code"]), ("essential", .bool true)])], some (.obj [("grant_types", .obj [("add", .arr [.str "authorization_code"]), ("superset_of", .arr []), ("essential", .bool true)])]), .obj [], .obj [("grant_types", .arr [.str "authorization_code"])], false⟩,
  ⟨1749, .obj [("grant_types", .obj [("superset_of", .arr [])])], .obj [("grant_types", .obj [("add", .arr [.str "authorization_code"])])], some (.obj [("grant_types", .obj [("add", .arr [.str "authorization_code"]), ("superset_of", .arr [])])]), .obj [], .obj [("grant_types", .arr [.str "authorization_code"])], false⟩,
  ⟨1750, .obj [("grant_types", .obj [("superset_of", .arr []), ("essential", .bool true)])], .obj [("grant_types", .obj [("add", .arr [.str "authorization_code", .str "refresh_token"]), ("essential", .bool true)])], some (.obj [("grant_types", .obj [("add", .arr [.str "authorization_code", .str "refresh_token"]), ("superset_of", .arr []), ("essential", .bool true)])]), .obj [("grant_types", .arr [.str "authorization_code"])], .obj [("grant_types", .arr [.str "authorization_code", .str "refresh_token"])], false⟩,
  ⟨1751, .obj [("grant_types", .obj [("superset_of", .arr []), ("essential", .bool true)])], .obj [("grant_types", .obj [("add", .arr [.str "authorization_code", .str "refresh_token"])])], some (.obj [("grant_types", .obj [("add", .arr [.str "authorization_code", .str "refresh_token"]), ("superset_of", .arr []), ("essential", .bool true)])]), .obj [("grant_types", .arr [.str "authorization_code"])], .obj [("grant_types", .arr [.str "authorization_code", .str "refresh_token"])], false⟩,
  ⟨1752, .obj [("grant_types", .obj [("superset_of", .arr [])])], .obj [("grant_types", .obj [("add", .arr [.str "authorization_code", .str "refresh_token"]), ("essential", .bool true)])], some (.obj [("grant_types", .obj [("add", .arr [.str "authorization_code", .str "refresh_token"]), ("superset_of", .arr []), ("essential", .bool true)])]), .obj [("grant_types", .arr [.str "authorization_code"])], .obj [("grant_types", .arr [.str "authorization_code", .str "refresh_token"])], false⟩,
  ⟨1753, .obj [("grant_types", .obj [("superset_of", .arr [])])], .obj [("grant_types", .obj [("add", .arr [.str "authorization_code", .str "refresh_token"])])], some (.obj [("grant_types", .obj [("add", .arr [.str "authorization_code", .str "refresh_token"]), ("superset_of", .arr [])])]), .obj [("grant_types", .arr [.str "authorization_code"])], .obj [("grant_types", .arr [.str "authorization_code", .str "refresh_token"])], false⟩,
  ⟨1754, .obj [("grant_types", .obj [("superset_of", .arr []), ("essential", .bool true)])], .obj [("grant_types", .obj [("add", .arr [.str "authorization_code", .str "refresh_token"]), ("essential", .bool true)])], some (.obj [("grant_types", .obj [("add", .arr [.str "authorization_code", .str "refresh_token"]), ("superset_of", .arr []), ("essential", .bool true)])]), .obj [("grant_types", .arr [.str "password"])], .obj [("grant_types", .arr [.str "password", .str "authorization_code", .str "refresh_token"])], false⟩,
  ⟨1755, .obj [("grant_types", .obj [("superset_of", .arr []), ("essential", .bool true)])], .obj [("grant_types", .obj [("add", .arr [.str "authorization_code", .str "refresh_token"])])], some (.obj [("grant_types", .obj [("add", .arr [.str "authorization_code", .str "refresh_token"]), ("superset_of", .arr []), ("essential", .bool true)])]), .obj [("grant_types", .arr [.str "password"])], .obj [("grant_types", .arr [.str "password", .str "authorization_code", .str "refresh_token"])], false⟩,
  ⟨1756, .obj [("grant_types", .obj [("superset_of", .arr [])])], .obj [("grant_types", .obj [("add", .arr [.str "authorization_code", .str "refresh_token"]), ("essential", .bool true)])], some (.obj [("grant_types", .obj [("add", .arr [.str "authorization_code", .str "refresh_token"]), ("superset_of", .arr []), ("essential", .bool true)])]), .obj [("grant_types", .arr [.str "password"])], .obj [("grant_types", .arr [.str "password", .str "authorization_code", .str "refresh_token"])], false⟩,
  ⟨1757, .obj [("grant_types", .obj [("superset_of", .arr [])])], .obj [("grant_types", .obj [("add", .arr [.str "authorization_code", .str "refresh_token"])])], some (.obj [("grant_types", .obj [("add", .arr [.str "authorization_code", .str "refresh_token"]), ("superset_of", .arr [])])]), .obj [("grant_types", .arr [.str "password"])], .obj [("grant_types", .arr [.str "password", .str "authorization_code", .str "refresh_token"])], false⟩,
  ⟨1758, .obj [("grant_types", .obj [("superset_of", .arr []), ("essential", .bool true)])], .obj [("grant_types", .obj [("add", .arr [.str "authorization_code", .str "refresh_token"]), ("essential", .bool true)])], some (.obj [("grant_types", .obj [("add", .arr [.str "authorization_code", .str "refresh_token"]), ("superset_of", .arr []), ("essential", .bool true)])]), .obj [("grant_types", .arr [.str "authorization_code", .str "refresh_token"])], .obj [("grant_types", .arr [.str "authorization_code", .str "refresh_token"])], false⟩,
  ⟨1759, .obj [("grant_types", .obj [("superset_of", .arr []), ("essential", .bool true)])], .obj [("grant_types", .obj [("add", .arr [.str "authorization_code", .str "refresh_token"])])], some (.obj [("grant_types", .obj [("add", .arr [.str "authorization_code", .str "refresh_token"]), ("superset_of", .arr []), ("essential", .bool true)])]), .obj [("grant_types", .arr [.str "authorization_code", .str "refresh_token"])], .obj [("grant_types", .arr [.str "authorization_code", .str "refresh_token"])], false⟩,
  ⟨1760, .obj [("grant_types", .obj [("superset_of", .arr [])])], .obj [("grant_types", .obj [("add", .arr [.str "authorization_code", .str "refresh_token"]), ("essential", .bool true)])], some (.obj [("grant_types", .obj [("add", .arr [.str "authorization_code", .str "refresh_token"]), ("superset_of", .arr []), ("essential", .bool true)])]), .obj [("grant_types", .arr [.str "authorization_code", .str "refresh_token"])], .obj [("grant_types", .arr [.str "authorization_code", .str "refresh_token"])], false⟩,
  ⟨1761, .obj [("grant_types", .obj [("superset_of", .arr [])])], .obj [("grant_types", .obj [("add", .arr [.str "authorization_code", .str "refresh_token"])])], some (.obj [("grant_types", .obj [("add", .arr [.str "authorization_code", .str "refresh_token"]), ("superset_of", .arr [])])]), .obj [("grant_types", .arr [.str "authorization_code", .str "refresh_token"])], .obj [("grant_types", .arr [.str "authorization_code", .str "refresh_token"])], false⟩,
  ⟨1762, .obj [("grant_types", .obj [("superset_of", .arr []), ("essential", .bool true)])], .obj [("grant_types", .obj [("add", .arr [.str "authorization_code", .str "refresh_token"]), ("essential", .bool true)])], some (.obj [("grant_types", .obj [("add", .arr [.str "authorization_code", .str "refresh_token"]), ("superset_of", .arr []), ("essential", .bool true)])]), .obj [("grant_types", .arr [.str "authorization_code", .str "password"])], .obj [("grant_types", .arr [.str "authorization_code", .str "password", .str "refresh_token"])], false⟩,
  ⟨1763, .obj [("grant_types", .obj [("superset_of", .arr []), ("essential", .bool true)])], .obj [("grant_types", .obj [("add", .arr [.str "authorization_code", .str "refresh_token"])])], some (.obj [("grant_types", .obj [("add", .arr [.str "authorization_code", .str "refresh_token"]), ("superset_of", .arr []), ("essential", .bool true)])]), .obj [("grant_types", .arr [.str "authorization_code", .str "password"])], .obj [("grant_types", .arr [.str "authorization_code", .str "password", .str "refresh_token"])], false⟩,
  ⟨1764, .obj [("grant_types", .obj [("superset_of", .arr [])])], .obj [("grant_types", .obj [("add", .arr [.str "authorization_code", .str "refresh_token"]), ("essential", .bool true)])], some (.obj [("grant_types", .obj [("add", .arr [.str "authorization_code", .str "refresh_token"]), ("superset_of", .arr []), ("essential", .bool true)])]), .obj [("grant_types", .arr [.str "authorization_code", .str "password"])], .obj [("grant_types", .arr [.str "authorization_code", .str "password", .str "refresh_token"])], false⟩,
  ⟨1765, .obj [("grant_types", .obj [("superset_of", .arr [])])], .obj [("grant_types", .obj [("add", .arr [.str "authorization_code", .str "refresh_token"])])], some (.obj [("grant_types", .obj [("add", .arr [.str "authorization_code", .str "refresh_token"]), ("superset_of", .arr [])])]), .obj [("grant_types", .arr [.str "authorization_code", .str "password"])], .obj [("grant_types", .arr [.str "authorization_code", .str "password", .str "refresh_token"])], false⟩,
  ⟨1766, .obj [("grant_types", .obj [("superset_of", .arr []), ("essential", .bool true)])], .obj [("grant_types", .obj [("add", .arr [.str "authorization_code", .str "refresh_token"]), ("essential", .bool true)])], some (.obj [("grant_types", .obj [("add", .arr [.str "authorization_code", .str "refresh_token"]), ("superset_of", .arr []), ("essential", .bool true)])]), .obj [("grant_types", .arr [])], .obj [("grant_types", .arr [.str "authorization_code", .str "refresh_token"])], false⟩,
  ⟨1767, .obj [("grant_types", .obj [("superset_of", .arr []), ("essential", .bool true)])], .obj [("grant_types", .obj [("add", .arr [.str "authorization_code", .str "refresh_token"])])], some (.obj [("grant_types", .obj [("add", .arr [.str "authorization_code", .str "refresh_token"]), ("superset_of", .arr []), ("essential", .bool true)])]), .obj [("grant_types", .arr [])], .obj [("grant_types", .arr [.str "authorization_code", .str "refresh_token"])], false⟩,
  ⟨1768, .obj [("grant_types", .obj [("superset_of", .arr [])])], .obj [("grant_types", .obj [("add", .arr [.str "authorization_code", .str "refresh_token"]), ("essential", .bool true)])], some (.obj [("grant_types", .obj [("add", .arr [.str "authorization_code", .str "refresh_token"]), ("superset_of", .arr []), ("essential", .bool true)])]), .obj [("grant_types", .arr [])], .obj [("grant_types", .arr [.str "authorization_code", .str "refresh_token"])], false⟩,
  ⟨1769, .obj [("grant_types", .obj [("superset_of", .arr [])])], .obj [("grant_types", .obj [("add", .arr [.str "authorization_code", .str "refresh_token"])])], some (.obj [("grant_types", .obj [("add", .arr [.str "authorization_code", .str "refresh_token"]), ("superset_of", .arr [])])]), .obj [("grant_types", .arr [])], .obj [("grant_types", .arr [.str "authorization_code", .str "refresh_token"])], false⟩,
  ⟨1770, .obj [("grant_types", .obj [("superset_of", .arr []), ("essential", .bool true)])], .obj [("grant_types", .obj [("add", .arr [.str "authorization_code", .str "refresh_token"]), ("essential", .bool true)])], some (.obj [("grant_types", .obj [("add", .arr [.str "authorization_code", .str "refresh_token"]), ("superset_of", .arr []), ("essential", .bool true)])]), .obj [], .obj [("grant_types", .arr [.str "authorization_code", .str "refresh_token"])], false⟩,
  ⟨1771, .obj [("grant_types", .obj [("superset_of", .arr []), ("essential", .bool true)])], .obj [("grant_types", .obj [("add", .arr [.str "authorization_code", .str "refresh_token"])])], some (.obj [("grant_types", .obj [("add", .arr [.str "authorization_code", .str "refresh_token"]), ("superset_of", .arr []), ("essential", .bool true)])]), .obj [], .obj [("grant_types", .arr [.str "authorization_code", .str "refresh_token"])], false⟩,
  ⟨1772, .obj [("grant_types", .obj [("superset_of", .arr [])])], .obj [("grant_types", .obj [("add", .arr [.str "authorization_code", .str "refresh_token"]), ("essential", .bool true)])], some (.obj [("grant_types", .obj [("add", .arr [.str "authorization_code", .str "refresh_token"]), ("superset_of", .arr []), ("essential", .bool true)])]), .obj [], .obj [("grant_types", .arr [.str "authorization_code", .str "refresh_token"])], false⟩,
  ⟨1773, .obj [("grant_types", .obj [("superset_of", .arr [])])], .obj [("grant_types", .obj [("add", .arr [.str "authorization_code", .str "refresh_token"])])], some (.obj [("grant_types", .obj [("add", .arr [.str "authorization_code", .str "refresh_token"]), ("superset_of", .arr [])])]), .obj [], .obj [("grant_types", .arr [.str "authorization_code", .str "refresh_token"])], false⟩,
  ⟨1774, .obj [("grant_types", .obj [("superset_of", .arr [.str "authorization_code"]), ("essential", .bool true)])], .obj [("grant_types", .obj [("add", .arr [.str "authorization_code", .str "refresh_token"]), ("essential", .bool true)])], some (.obj [("grant_types", .obj [("add", .arr [.str "authorization_code", .str "refresh_token"]), ("superset_of", .arr [.str "authorization_code"]), ("essential", .bool true)])]), .obj [("grant_types", .arr [.str "authorization_code"])], .obj [("grant_types", .arr [.str "authorization_code", .str "refresh_token"])], false⟩,
  ⟨1775, .obj [("grant_types", .obj [("superset_of", .arr [.str "authorization_code"]), ("essential", .bool true)])], .obj [("grant_types", .obj [("add", .arr [.str "authorization_code", .str "refresh_token"])])], some (.obj [("grant_types", .obj [("add", .arr [.str "authorization_code", .str "refresh_token"]), ("superset_of", .arr [.str "authorization_code"]), ("essential", .bool true)])]), .obj [("grant_types", .arr [.str "authorization_code"])], .obj [("grant_types", .arr [.str "authorization_code", .str "refresh_token"])], false⟩,
  ⟨1776, .obj [("grant_types", .obj [("superset_of", .arr [.str "authorization_code"])])], .obj [("grant_types", .obj [("add", .arr [.str "authorization_code", .str "refresh_token"]), ("essential", .bool true)])], some (.obj [("grant_types", .obj [("add", .arr [.str "authorization_code", .str "refresh_token"]), ("superset_of", .arr [.str "authorization_code"]), ("essential", .bool true)])]), .obj [("grant_types", .arr [.str "authorization_code"])], .obj [("grant_types", .arr [.str "authorization_code", .str "refresh_token"])], false⟩,
  ⟨1777, .obj [("grant_types", .obj [("superset_of", .arr [.str "authorization_code"])])], .obj [("grant_types", .obj [("add", .arr [.str "authorization_code", .str "refresh_token"])])], some (.obj [("grant_types", .obj [("add", .arr [.str "authorization_code", .str "refresh_token"]), ("superset_of", .arr [.str "authorization_code"])])]), .obj [("grant_types", .arr [.str "authorization_code"])], .obj [("grant_types", .arr [.str "authorization_code", .str "refresh_token"])], false⟩,
  ⟨1778, .obj [("grant_types", .obj [("superset_of", .arr [.str "authorization_code"]), ("essential", .bool true)])], .obj [("grant_types", .obj [("add", .arr [.str "authorization_code", .str "refresh_token"]), ("essential", .bool true)])], some (.obj [("grant_types", .obj [("add", .arr [.str "authorization_code", .str "refresh_token"]), ("superset_of", .arr [.str "authorization_code"]), ("essential", .bool true)])]), .obj [("grant_types", .arr [.str "password"])], .obj [("grant_types", .arr [.str "password", .str "authorization_code", .str "refresh_token"])], false⟩,
  ⟨1779, .obj [("grant_types", .obj [("superset_of", .arr [.str "authorization_code"]), ("essential", .bool true)])], .obj [("grant_types", .obj [("add", .arr [.str "authorization_code", .str "refresh_token"])])], some (.obj [("grant_types", .obj [("add", .arr [.str "authorization_code", .str "refresh_token"]), ("superset_of", .arr [.str "authorization_code"]), ("essential", .bool true)])]), .obj [("grant_types", .arr [.str "password"])], .obj [("grant_types", .arr [.str "password", .str "authorization_code", .str "refresh_token"])], false⟩,
  ⟨1780, .obj [("grant_types", .obj [("superset_of", .arr [.str "authorization_code"])])], .obj [("grant_types", .obj [("add", .arr [.str "authorization_code", .str "refresh_token"]), ("essential", .bool true)])], some (.obj [("grant_types", .obj [("add", .arr [.str "authorization_code", .str "refresh_token"]), ("superset_of", .arr [.str "authorization_code"]), ("essential", .bool true)])]), .obj [("grant_types", .arr [.str "password"])], .obj [("grant_types", .arr [.str "password", .str "authorization_code", .str "refresh_token"])], false⟩,
  ⟨1781, .obj [("grant_types", .obj [("superset_of", .arr [.str "authorization_code"])])], .obj [("grant_types", .obj [("add", .arr [.str "authorization_code", .str "refresh_token"])])], some (.obj [("grant_types", .obj [("add", .arr [.str "authorization_code", .str "refresh_token"]), ("superset_of", .arr [.str "authorization_code"])])]), .obj [("grant_types", .arr [.str "password"])], .obj [("grant_types", .arr [.str "password", .str "authorization_code", .str "refresh_token"])], false⟩,
  ⟨1782, .obj [("grant_types", .obj [("superset_of", .arr [.str "authorization_code"]), ("essential", .bool true)])], .obj [("grant_types", .obj [("add", .arr [.str "authorization_code", .str "refresh_token"]), ("essential", .bool true)])], some (.obj [("grant_types", .obj [("add", .arr [.str "authorization_code", .str "refresh_token"]), ("superset_of", .arr [.str "authorization_code"]), ("essential", .bool true)])]), .obj [("grant_types", .arr [.str "authorization_code", .str "refresh_token"])], .obj [("grant_types", .arr [.str "authorization_code", .str "refresh_token"])], false⟩,
  ⟨1783, .obj [("grant_types", .obj [("superset_of", .arr [.str "authorization_code"]), ("essential", .bool true)])], .obj [("grant_types", .obj [("add", .arr [.str "authorization_code", .str "refresh_token"])])], some (.obj [("grant_types", .obj [("add", .arr [.str "authorization_code", .str "refresh_token"]), ("superset_of", .arr [.str "authorization_code"]), ("essential", .bool true)])]), .obj [("grant_types", .arr [.str "authorization_code", .str "refresh_token"])], .obj [("grant_types", .arr [.str "authorization_code", .str "refresh_token"])], false⟩,
  ⟨1784, .obj [("grant_types", .obj [("superset_of", .arr [.str "authorization_code"])])], .obj [("grant_types", .obj [("add", .arr [.str "authorization_code", .str "refresh_token"]), ("essential", .bool true)])], some (.obj [("grant_types", .obj [("add", .arr [.str "authorization_code", .str "refresh_token"]), ("superset_of", .arr [.str "authorization_code"]), ("essential", .bool true)])]), .obj [("grant_types", .arr [.str "authorization_code", .str "refresh_token"])], .obj [("grant_types", .arr [.str "authorization_code", .str "refresh_token"])], false⟩,
  ⟨1785, .obj [("grant_types", .obj [("superset_of", .arr [.str "authorization_code"])])], .obj [("grant_types", .obj [("add", .arr [.str "authorization_code", .str "refresh_token"])])], some (.obj [("grant_types", .obj [("add", .arr [.str "authorization_code", .str "refresh_token"]), ("superset_of", .arr [.str "authorization_code"])])]), .obj [("grant_types", .arr [.str "authorization_code", .str "refresh_token"])], .obj [("grant_types", .arr [.str "authorization_code", .str "refresh_token"])], false⟩,
  ⟨1786, .obj [("grant_types", .obj [("superset_of", .arr [.str "authorization_code"]), ("essential", .bool true)])], .obj [("grant_types", .obj [("add", .arr [.str "authorization_code", .str "refresh_token"]), ("essential", .bool true)])], some (.obj [("grant_types", .obj [("add", .arr [.str "authorization_code", .str "refresh_token"]), ("superset_of", .arr [.str "authorization_code"]), ("essential", .bool true)])]), .obj [("grant_types", .arr [.str "authorization_code", .str "password"])], .obj [("grant_types", .arr [.str "authorization_code", .str "password", .str "refresh_token"])], false⟩,
  ⟨1787, .obj [("grant_types", .obj [("superset_of", .arr [.str "authorization_code"]), ("essential", .bool true)])], .obj [("grant_types", .obj [("add", .arr [.str "authorization_code", .str "refresh_token"])])], some (.obj [("grant_types", .obj [("add", .arr [.str "authorization_code", .str "refresh_token"]), ("superset_of", .arr [.str "authorization_code"]), ("essential", .bool true)])]), .obj [("grant_types", .arr [.str "authorization_code", .str "password"])], .obj [("grant_types", .arr [.str "authorization_code", .str "password", .str "refresh_token"])], false⟩,
  ⟨1788, .obj [("grant_types", .obj [("superset_of", .arr [.str "authorization_code"])])], .obj [("grant_types", .obj [("add", .arr [.str "authorization_code", .str "refresh_token"]), ("essential", .bool true)])], some (.obj [("grant_types", .obj [("add", .arr [.str "authorization_code", .str "refresh_token"]), ("superset_of", .arr [.str "authorization_code"]), ("essential", .bool true)])]), .obj [("grant_types", .arr [.str "authorization_code", .str "password"])], .obj [("grant_types", .arr [.str "authorization_code", .str "password", .str "refresh_token"])], false⟩,
  ⟨1789, .obj [("grant_types", .obj [("superset_of", .arr [.str "authorization_code"])])], .obj [("grant_types", .obj [("add", .arr [.str "authorization_code", .str "refresh_token"])])], some (.obj [("grant_types", .obj [("add", .arr [.str "authorization_code", .str "refresh_token"]), ("superset_of", .arr [.str "authorization_code"])])]), .obj [("grant_types", .arr [.str "authorization_code", .str "password"])], .obj [("grant_types", .arr [.str "authorization_code", .str "password", .str "refresh_token"])], false⟩,
  ⟨1790, .obj [("grant_types", .obj [("superset_of", .arr [.str "authorization_code"]), ("essential", .bool true)])], .obj [("grant_types", .obj [("add", .arr [.str "authorization_code", .str "refresh_token"]), ("essential", .bool true)])], some (.obj [("grant_types", .obj [("add", .arr [.str "authorization_code", .str "refresh_token"]), ("superset_of", .arr [.str "authorization_code"]), ("essential", .bool true)])]), .obj [("grant_types", .arr [])], .obj [("grant_types", .arr [.str "authorization_code", .str "refresh_token"])], false⟩,
  ⟨1791, .obj [("grant_types", .obj [("superset_of", .arr [.str "authorization_code"]), ("essential", .bool true)])], .obj [("grant_types", .obj [("add", .arr [.str "authorization_code", .str "refresh_token"])])], some (.obj [("grant_types", .obj [("add", .arr [.str "authorization_code", .str "refresh_token"]), ("superset_of", .arr [.str "authorization_code"]), ("essential", .bool true)])]), .obj [("grant_types", .arr [])], .obj [("grant_types", .arr [.str "authorization_code", .str "refresh_token"])], false⟩,
  ⟨1792, .obj [("grant_types", .obj [("superset_of", .arr [.str "authorization_code"])])], .obj [("grant_types", .obj [("add", .arr [.str "authorization_code", .str "refresh_token"]), ("essential", .bool true)])], some (.obj [("grant_types", .obj [("add", .arr [.str "authorization_code", .str "refresh_token"]), ("superset_of", .arr [.str "authorization_code"]), ("essential", .bool true)])]), .obj [("grant_types", .arr [])], .obj [("grant_types", .arr [.str "authorization_code", .str "refresh_token"])], false⟩,
  ⟨1793, .obj [("grant_types", .obj [("superset_of", .arr [.str "authorization_code"])])], .obj [("grant_types", .obj [("add", .arr [.str "authorization_code", .str "refresh_token"])])], some (.obj [("grant_types", .obj [("add", .arr [.str "authorization_code", .str "refresh_token"]), ("superset_of", .arr [.str "authorization_code"])])]), .obj [("grant_types", .arr [])], .obj [("grant_types", .arr [.str "authorization_code", .str "refresh_token"])], false⟩,
  ⟨1794, .obj [("grant_types", .obj [("superset_of", .arr [.str "authorization_code"]), ("essential", .bool true)])], .obj [("grant_types", .obj [("add", .arr [.str "authorization_code", .str "refresh_token"]), ("essential", .bool true)])], some (.obj [("grant_types", .obj [("add", .arr [.str "authorization_code", .str "refresh_token"]), ("superset_of", .arr [.str "authorization_code"]), ("essential", .bool true)])]), .obj [], .obj [("grant_types", .arr [.str "authorization_code", .str "refresh_token"])], false⟩,
  ⟨1795, .obj [("grant_types", .obj [("superset_of", .arr [.str "authorization_code"]), ("essential", .bool true)])], .obj [("grant_types", .obj [("add", .arr [.str "authorization_code", .str "refresh_token"])])], some (.obj [("grant_types", .obj [("add", .arr [.str "authorization_code", .str "refresh_token"]), ("superset_of", .arr [.str "authorization_code"]), ("essential", .bool true)])]), .obj [], .obj [("grant_types", .arr [.str "authorization_code", .str "refresh_token"])], false⟩,
  ⟨1796, .obj [("grant_types", .obj [("superset_of", .arr [.str "authorization_code"])])], .obj [("grant_types", .obj [("add", .arr [.str "authorization_code", .str "refresh_token"]), ("essential", .bool true)])], some (.obj [("grant_types", .obj [("add", .arr [.str "authorization_code", .str "refresh_token"]), ("superset_of", .arr [.str "authorization_code"]), ("essential", .bool true)])]), .obj [], .obj [("grant_types", .arr [.str "authorization_code", .str "refresh_token"])], false⟩,
  ⟨1797, .obj [("grant_types", .obj [("superset_of", .arr [.str "authorization_code"])])], .obj [("grant_types", .obj [("add", .arr [.str "authorization_code", .str "refresh_token"])])], some (.obj [("grant_types", .obj [("add", .arr [.str "authorization_code", .str "refresh_token"]), ("superset_of", .arr [.str "authorization_code"])])]), .obj [], .obj [("grant_types", .arr [.str "authorization_code", .str "refresh_token"])], false⟩,
  ⟨1798, .obj [("grant_types", .obj [("superset_of", .arr []), ("essential", .bool true)])], .obj [("grant_types", .obj [("default", .arr [.str "authorization_code"]), ("essential", .bool true)])], some (.obj [("grant_types", .obj [("superset_of", .arr []), ("default", .arr [.str "authorization_code"]), ("essential", .bool true)])]), .obj [("grant_types", .arr [.str "authorization_code"])], .obj [("grant_types", .arr [.str "authorization_code"])], false⟩,
  ⟨1799, .obj [("grant_types", .obj [("superset_of", .arr []), ("essential", .bool true)])], .obj [("grant_types", .obj [("default", .arr [.str "authorization_code"])])], some (.obj [("grant_types", .obj [("superset_of", .arr []), ("default", .arr [.str "authorization_code"]), ("essential", .bool true)])]), .obj [("grant_types", .arr [.str "authorization_code"])], .obj [("grant_types", .arr [.str "authorization_code"])], false⟩,
  ⟨1800, .obj [("grant_types", .obj [("superset_of", .arr [])])], .obj [("grant_types", .obj [("default", .arr [.str "authorization_code"]), ("essential", .bool true)])], some (.obj [("grant_types", .obj [("superset_of", .arr []), ("default", .arr [.str "authorization_code"]), ("essential", .bool true)])]), .obj [("grant_types", .arr [.str "authorization_code"])], .obj [("grant_types", .arr [.str "authorization_code"])], false⟩,
  ⟨1801, .obj [("grant_types", .obj [("superset_of", .arr [])])], .obj [("grant_types", .obj [("default", .arr [.str "authorization_code"])])], some (.obj [("grant_types", .obj [("superset_of", .arr []), ("default", .arr [.str "authorization_code"])])]), .obj [("grant_types", .arr [.str "authorization_code"])], .obj [("grant_types", .arr [.str "authorization_code"])], false⟩,
  ⟨1802, .obj [("grant_types", .obj [("superset_of", .arr []), ("essential", .bool true)])], .obj [("grant_types", .obj [("default", .arr [.str "authorization_code"]), ("essential", .bool true)])], some (.obj [("grant_types", .obj [("superset_of", .arr []), ("default", .arr [.str "authorization_code"]), ("essential", .bool true)])]), .obj [("grant_types", .arr [.str "password"])], .obj [("grant_types", .arr [.str "password"])], false⟩,
  ⟨1803, .obj [("grant_types", .obj [("superset_of", .arr []), ("essential", .bool true)])], .obj [("grant_types", .obj [("default", .arr [.str "authorization_code"])])], some (.obj [("grant_types", .obj [("superset_of", .arr []), ("default", .arr [.str "authorization_code"]), ("essential", .bool true)])]), .obj [("grant_types", .arr [.str "password"])], .obj [("grant_types", .arr [.str "password"])], false⟩,
  ⟨1804, .obj [("grant_types", .obj [("superset_of", .arr [])])], .obj [("grant_types", .obj [("default", .arr [.str "authorization_code"]), ("essential", .bool true)])], some (.obj [("grant_types", .obj [("superset_of", .arr []), ("default", .arr [.str "authorization_code"]), ("essential", .bool true)])]), .obj [("grant_types", .arr [.str "password"])], .obj [("grant_types", .arr [.str "password"])], false⟩,
  ⟨1805, .obj [("grant_types", .obj [("superset_of", .arr [])])], .obj [("grant_types", .obj [("default", .arr [.str "authorization_code"])])], some (.obj [("grant_types", .obj [("superset_of", .arr []), ("default", .arr [.str "authorization_code"])])]), .obj [("grant_types", .arr [.str "password"])], .obj [("grant_types", .arr [.str "password"])], false⟩,
  ⟨1806, .obj [("grant_types", .obj [("superset_of", .arr []), ("essential", .bool true)])], .obj [("grant_types", .obj [("default", .arr [.str "authorization_code"]), ("essential", .bool true)])], some (.obj [("grant_types", .obj [("superset_of", .arr []), ("default", .arr [.str "authorization_code"]), ("essential", .bool true)])]), .obj [("grant_types", .arr [.str "authorization_code", .str "refresh_token"])], .obj [("grant_types", .arr [.str "authorization_code", .str "refresh_token"])], false⟩,
  ⟨1807, .obj [("grant_types", .obj [("superset_of", .arr []), ("essential", .bool true)])], .obj [("grant_types", .obj [("default", .arr [.str "authorization_code"])])], some (.obj [("grant_types", .obj [("superset_of", .arr []), ("default", .arr [.str "authorization_code"]), ("essential", .bool true)])]), .obj [("grant_types", .arr [.str "authorization_code", .str "refresh_token"])], .obj [("grant_types", .arr [.str "authorization_code", .str "refresh_token"])], false⟩,
  ⟨1808, .obj [("grant_types", .obj [("superset_of", .arr [])])], .obj [("grant_types", .obj [("default", .arr [.str "authorization_code"]), ("essential", .bool true)])], some (.obj [("grant_types", .obj [("superset_of", .arr []), ("default", .arr [.str "authorization_code"]), ("essential", .bool true)])]), .obj [("grant_types", .arr [.str "authorization_code", .str "refresh_token"])], .obj [("grant_types", .arr [.str "authorization_code", .str "refresh_token"])], false⟩,
  ⟨1809, .obj [("grant_types", .obj [("superset_of", .arr [])])], .obj [("grant_types", .obj [("default", .arr [.str "authorization_code"])])], some (.obj [("grant_types", .obj [("superset_of", .arr []), ("default", .arr [.str "authorization_code"])])]), .obj [("grant_types", .arr [.str "authorization_code", .str "refresh_token"])], .obj [("grant_types", .arr [.str "authorization_code", .str "refresh_token"])], false⟩,
  ⟨1810, .obj [("grant_types", .obj [("superset_of", .arr []), ("essential", .bool true)])], .obj [("grant_types", .obj [("default", .arr [.str "authorization_code"]), ("essential", .bool true)])], some (.obj [("grant_types", .obj [("superset_of", .arr []), ("default", .arr [.str "authorization_code"]), ("essential", .bool true)])]), .obj [("grant_types", .arr [.str "authorization_code", .str "password"])], .obj [("grant_types", .arr [.str "authorization_code", .str "password"])], false⟩,
  ⟨1811, .obj [("grant_types", .obj [("superset_of", .arr []), ("essential", .bool true)])], .obj [("grant_types", .obj [("default", .arr [.str "authorization_code"])])], some (.obj [("grant_types", .obj [("superset_of", .arr []), ("default", .arr [.str "authorization_code"]), ("essential", .bool true)])]), .obj [("grant_types", .arr [.str "authorization_code", .str "password"])], .obj [("grant_types", .arr [.str "authorization_code", .str "password"])], false⟩,
  ⟨1812, .obj [("grant_types", .obj [("superset_of", .arr [])])], .obj [("grant_types", .obj [("default", .arr [.str "authorization_code"]), ("essential", .bool true)])], some (.obj [("grant_types", .obj [("superset_of", .arr []), ("default", .arr [.str "authorization_code"]), ("essential", .bool true)])]), .obj [("grant_types", .arr [.str "authorization_code", .str "password"])], .obj [("grant_types", .arr [.str "authorization_code", .str "password"])], false⟩,
  ⟨1813, .obj [("grant_types", .obj [("superset_of", .arr [])])], .obj [("grant_types", .obj [("default", .arr [.str "authorization_code"])])], some (.obj [("grant_types", .obj [("superset_of", .arr []), ("default", .arr [.str "authorization_code"])])]), .obj [("grant_types", .arr [.str "authorization_code", .str "password"])], .obj [("grant_types", .arr [.str "authorization_code", .str "password"])], false⟩,
  ⟨1814, .obj [("grant_types", .obj [("superset_of", .arr []), ("essential", .bool true)])], .obj [("grant_types", .obj [("default", .arr [.str "authorization_code"]), ("essential", .bool true)])], some (.obj [("grant_types", .obj [("superset_of", .arr []), ("default", .arr [.str "authorization_code"]), ("essential", .bool true)])]), .obj [("grant_types", .arr [])], .obj [("grant_types", .arr [])], false⟩,
  ⟨1815, .obj [("grant_types", .obj [("superset_of", .arr []), ("essential", .bool true)])], .obj [("grant_types", .obj [("default", .arr [.str "authorization_code"])])], some (.obj [("grant_types", .obj [("superset_of", .arr []), ("default", .arr [.str "authorization_code"]), ("essential", .bool true)])]), .obj [("grant_types", .arr [])], .obj [("grant_types", .arr [])], false⟩,
  ⟨1816, .obj [("grant_types", .obj [("superset_of", .arr [])])], .obj [("grant_types", .obj [("default", .arr [.str "authorization_code"]), ("essential", .bool true)])], some (.obj [("grant_types", .obj [("superset_of", .arr []), ("default", .arr [.str "authorization_code"]), ("essential", .bool true)])]), .obj [("grant_types", .arr [])], .obj [("grant_types", .arr [])], false⟩,
  ⟨1817, .obj [("grant_types", .obj [("superset_of", .arr [])])], .obj [("grant_types", .obj [("default", .arr [.str "authorization_code"])])], some (.obj [("grant_types", .obj [("superset_of", .arr []), ("default", .arr [.str "authorization_code"])])]), .obj [("grant_types", .arr [])], .obj [("grant_types", .arr [])], false⟩,
  ⟨1818, .obj [("grant_types", .obj [("superset_of", .arr []), ("essential", .bool true)])], .obj [("grant_types", .obj [("default", .arr [.str "authorization_code"]), ("essential", .bool true)])], some (.obj [("grant_types", .obj [("superset_of", .arr []), ("default", .arr [.str "authorization_code"]), ("essential", .bool true)])]), .obj [], .obj [("grant_types", .arr [.str "authorization_code"])], false⟩,
  ⟨1819, .obj [("grant_types", .obj [("superset_of", .arr []), ("essential", .bool true)])], .obj [("grant_types", .obj [("default", .arr [.str "authorization_code"])])], some (.obj [("grant_types", .obj [("superset_of", .arr []), ("default", .arr [.str "authorization_code"]), ("essential", .bool true)])]), .obj [], .obj [("grant_types", .arr [.str "authorization_code"])], false⟩,
  ⟨1820, .obj [("grant_types", .obj [("superset_of", .arr [])])], .obj [("grant_types", .obj [("default", .arr [.str "authorization_code"]), ("essential", .bool true)])], some (.obj [("grant_types", .obj [("superset_of", .arr []), ("default", .arr [.str "authorization_code"]), ("essential", .bool true)])]), .obj [], .obj [("grant_types", .arr [.str "authorization_code"])], false⟩,
  ⟨1821, .obj [("grant_types", .obj [("superset_of", .arr [])])], .obj [("grant_types", .obj [("default", .arr [.str "authorization_code"])])], some (.obj [("grant_types", .obj [("superset_of", .arr []), ("default", .arr [.str "authorization_code"])])]), .obj [], .obj [("grant_types", .arr [.str "authorization_code"])], false⟩,
  ⟨1822, .obj [("grant_types", .obj [("superset_of", .arr []), ("essential", .bool true)])], .obj [("grant_types", .obj [("default", .arr [.str "authorization_code", .str "refresh_token"]), ("essential", .bool true)])], some (.obj [("grant_types", .obj [("superset_of", .arr []), ("default", .arr [.str "authorization_code", .str "refresh_token"]), ("essential", .bool true)])]), .obj [("grant_types", .arr [.str "authorization_code"])], .obj [("grant_types", .arr [.str "authorization_code"])], false⟩,
  ⟨1823, .obj [("grant_types", .obj [("superset_of", .arr []), ("essential", .bool true)])], .obj [("grant_types", .obj [("default", .arr [.str "authorization_code", .str "refresh_token"])])], some (.obj [("grant_types", .obj [("superset_of", .arr []), ("default", .arr [.str "authorization_code", .str "refresh_token"]), ("essential", .bool true)])]), .obj [("grant_types", .arr [.str "authorization_code"])], .obj [("grant_types", .arr [.str "authorization_code"])], false⟩,
  ⟨1824, .obj [("grant_types", .obj [("superset_of", .arr [])])], .obj [("grant_types", .obj [("default", .arr [.str "authorization_code", .str "refresh_token"]), ("essential", .bool true)])], some (.obj [("grant_types", .obj [("superset_of", .arr []), ("default", .arr [.str "authorization_code", .str "refresh_token"]), ("essential", .bool true)])]), .obj [("grant_types", .arr [.str "authorization_code"])], .obj [("grant_types", .arr [.str "authorization_code"])], false⟩,
  ⟨1825, .obj [("grant_types", .obj [("superset_of", .arr [])])], .obj [("grant_types", .obj [("default", .arr [.str "authorization_code", .str "refresh_token"])])], some (.obj [("grant_types", .obj [("superset_of", .arr []), ("default", .arr [.str "authorization_code", .str "refresh_token"])])]), .obj [("grant_types", .arr [.str "authorization_code"])], .obj [("grant_types", .arr [.str "authorization_code"])], false⟩,
  ⟨1826, .obj [("grant_types", .obj [("superset_of", .arr []), ("essential", .bool true)])], .obj [("grant_types", .obj [("default", .arr [.str "authorization_code", .str "refresh_token"]), ("essential", .bool true)])], some (.obj [("grant_types", .obj [("superset_of", .arr []), ("default", .arr [.str "authorization_code", .str "refresh_token"]), ("essential", .bool true)])]), .obj [("grant_types", .arr [.str "password"])], .obj [("grant_types", .arr [.str "password"])], false⟩,
  ⟨1827, .obj [("grant_types", .obj [("superset_of", .arr []), ("essential", .bool true)])], .obj [("grant_types", .obj [("default", .arr [.str "authorization_code", .str "refresh_token"])])], some (.obj [("grant_types", .obj [("superset_of", .arr []), ("default", .arr [.str "authorization_code", .str "refresh_token"]), ("essential", .bool true)])]), .obj [("grant_types", .arr [.str "password"])], .obj [("grant_types", .arr [.str "password"])], false⟩,
  ⟨1828, .obj [("grant_types", .obj [("superset_of", .arr [])])], .obj [("grant_types", .obj [("default", .arr [.str "authorization_code", .str "refresh_token"]), ("essential", .bool true)])], some (.obj [("grant_types", .obj [("superset_of", .arr []), ("default", .arr [.str "authorization_code", .str "refresh_token"]), ("essential", .bool true)])]), .obj [("grant_types", .arr [.str "password"])], .obj [("grant_types", .arr [.str "password"])], false⟩,
  ⟨1829, .obj [("grant_types", .obj [("superset_of", .arr [])])], .obj [("grant_types", .obj [("default", .arr [.str "authorization_code", .str "refresh_token"])])], some (.obj [("grant_types", .obj [("superset_of", .arr []), ("default", .arr [.str "authorization_code", .str "refresh_token"])])]), .obj [("grant_types", .arr [.str "password"])], .obj [("grant_types", .arr [.str "password"])], false⟩,
  ⟨1830, .obj [("grant_types", .obj [("superset_of", .arr []), ("essential", .bool true)])], .obj [("grant_types", .obj [("default", .arr [.str "authorization_code", .str "refresh_token"]), ("essential", .bool true)])], some (.obj [("grant_types", .obj [("superset_of", .arr []), ("default", .arr [.str "authorization_code", .str "refresh_token"]), ("essential", .bool true)])]), .obj [("grant_types", .arr [.str "authorization_code", .str "refresh_token"])], .obj [("grant_types", .arr [.str "authorization_code", .str "refresh_token"])], false⟩,
  ⟨1831, .obj [("grant_types", .obj [("superset_of", .arr []), ("essential", .bool true)])], .obj [("grant_types", .obj [("default", .arr [.str "authorization_code", .str "refresh_token"])])], some (.obj [("grant_types", .obj [("superset_of", .arr []), ("default", .arr [.str "authorization_code", .str "refresh_token"]), ("essential", .bool true)])]), .obj [("grant_types", .arr [.str "authorization_code", .str "refresh_token"])], .obj [("grant_types", .arr [.str "authorization_code", .str "refresh_token"])], false⟩,
  ⟨1832, .obj [("grant_types", .obj [("superset_of", .arr [])])], .obj [("grant_types", .obj [("default", .arr [.str "authorization_code", .str "refresh_token"]), ("essential", .bool true)])], some (.obj [("grant_types", .obj [("superset_of", .arr []), ("default", .arr [.str "authorization_code", .str "refresh_token"]), ("essential", .bool true)])]), .obj [("grant_types", .arr [.str "authorization_code", .str "refresh_token"])], .obj [("grant_types", .arr [.str "authorization_code", .str "refresh_token"])], false⟩,
  ⟨1833, .obj [("grant_types", .obj [("superset_of", .arr [])])], .obj [("grant_types", .obj [("default", .arr [.str "authorization_code", .str "refresh_token"])])], some (.obj [("grant_types", .obj [("superset_of", .arr []), ("default", .arr [.str "authorization_code", .str "refresh_token"])])]), .obj [("grant_types", .arr [.str "authorization_code", .str "refresh_token"])], .obj [("grant_types", .arr [.str "authorization_code", .str "refresh_token"])], false⟩,
  ⟨1834, .obj [("grant_types", .obj [("superset_of", .arr []), ("essential", .bool true)])], .obj [("grant_types", .obj [("default", .arr [.str "authorization_code", .str "refresh_token"]), ("essential", .bool true)])], some (.obj [("grant_types", .obj [("superset_of", .arr []), ("default", .arr [.str "authorization_code", .str "refresh_token"]), ("essential", .bool true)])]), .obj [("grant_types", .arr [.str "authorization_code", .str "password"])], .obj [("grant_types", .arr [.str "authorization_code", .str "password"])], false⟩,
  ⟨1835, .obj [("grant_types", .obj [("superset_of", .arr []), ("essential", .bool true)])], .obj [("grant_types", .obj [("default", .arr [.str "authorization_code", .str "refresh_token"])])], some (.obj [("grant_types", .obj [("superset_of", .arr []), ("default", .arr [.str "authorization_code", .str "refresh_token"]), ("essential", .bool true)])]), .obj [("grant_types", .arr [.str "authorization_code", .str "password"])], .obj [("grant_types", .arr [.str "authorization_code", .str "password"])], false⟩,
  ⟨1836, .obj [("grant_types", .obj [("superset_of", .arr [])])], .obj [("grant_types", .obj [("default", .arr [.str "authorization_code", .str "refresh_token"]), ("essential", .bool true)])], some (.obj [("grant_types", .obj [("superset_of", .arr []), ("default", .arr [.str "authorization_code", .str "refresh_token"]), ("essential", .bool true)])]), .obj [("grant_types", .arr [.str "authorization_code", .str "password"])], .obj [("grant_types", .arr [.str "authorization_code", .str "password"])], false⟩,
  ⟨1837, .obj [("grant_types", .obj [("superset_of", .arr [])])], .obj [("grant_types", .obj [("default", .arr [.str "authorization_code", .str "refresh_token"])])], some (.obj [("grant_types", .obj [("superset_of", .arr []), ("default", .arr [.str "authorization_code", .str "refresh_token"])])]), .obj [("grant_types", .arr [.str "authorization_code", .str "password"])], .obj [("grant_types", .arr [.str "authorization_code", .str "password"])], false⟩,
  ⟨1838, .obj [("grant_types", .obj [("superset_of", .arr []), ("essential", .bool true)])], .obj [("grant_types", .obj [("default", .arr [.str "authorization_code", .str "refresh_token"]), ("essential", .bool true)])], some (.obj [("grant_types", .obj [("superset_of", .arr []), ("default", .arr [.str "authorization_code", .str "refresh_token"]), ("essential", .bool true)])]), .obj [("grant_types", .arr [])], .obj [("grant_types", .arr [])], false⟩,
  ⟨1839, .obj [("grant_types", .obj [("superset_of", .arr []), ("essential", .bool true)])], .obj [("grant_types", .obj [("default", .arr [.str "authorization_code", .str "refresh_token"])])], some (.obj [("grant_types", .obj [("superset_of", .arr []), ("default", .arr [.str "authorization_code", .str "refresh_token"]), ("essential", .bool true)])]), .obj [("grant_types", .arr [])], .obj [("grant_types", .arr [])], false⟩,
  ⟨1840, .obj [("grant_types", .obj [("superset_of", .arr [])])], .obj [("grant_types", .obj [("default", .arr [.str "authorization_code", .str "refresh_token"]), ("essential", .bool true)])], some (.obj [("grant_types", .obj [("superset_of", .arr []), ("default", .arr [.str "authorization_code", .str "refresh_token"]), ("essential", .bool true)])]), .obj [("grant_types", .arr [])], .obj [("grant_types", .arr [])], false⟩,
  ⟨1841, .obj [("grant_types", .obj [("superset_of", .arr [])])], .obj [("grant_types", .obj [("default", .arr [.str "authorization_code", .str "refresh_token"])])], some (.obj [("grant_types", .obj [("superset_of", .arr []), ("default", .arr [.str "authorization_code", .str "refresh_token"])])]), .obj [("grant_types", .arr [])], .obj [("grant_types", .arr [])], false⟩,
  ⟨1842, .obj [("grant_types", .obj [("superset_of", .arr []), ("essential", .bool true)])], .obj [("grant_types", .obj [("default", .arr [.str "authorization_code", .str "refresh_token"]), ("essential", .bool true)])], some (.obj [("grant_types", .obj [("superset_of", .arr []), ("default", .arr [.str "authorization_code", .str "refresh_token"]), ("essential", .bool true)])]), .obj [], .obj [("grant_types", .arr [.str "authorization_code", .str "refresh_token"])], false⟩,
  ⟨1843, .obj [("grant_types", .obj [("superset_of", .arr []), ("essential", .bool true)])], .obj [("grant_types", .obj [("default", .arr [.str "authorization_code", .str "refresh_token"])])], some (.obj [("grant_types", .obj [("superset_of", .arr []), ("default", .arr [.str "authorization_code", .str "refresh_token"]), ("essential", .bool true)])]), .obj [], .obj [("grant_types", .arr [.str "authorization_code", .str "refresh_token"])], false⟩,
  ⟨1844, .obj [("grant_types", .obj [("superset_of", .arr [])])], .obj [("grant_types", .obj [("default", .arr [.str "authorization_code", .str "refresh_token"]), ("essential", .bool true)])], some (.obj [("grant_types", .obj [("superset_of", .arr []), ("default", .arr [.str "authorization_code", .str "refresh_token"]), ("essential", .bool true)])]), .obj [], .obj [("grant_types", .arr [.str "authorization_code", .str "refresh_token"])], false⟩,
  ⟨1845, .obj [("grant_types", .obj [("superset_of", .arr [])])], .obj [("grant_types", .obj [("default", .arr [.str "authorization_code", .str "refresh_token"])])], some (.obj [("grant_types", .obj [("superset_of", .arr []), ("default", .arr [.str "authorization_code", .str "refresh_token"])])]), .obj [], .obj [("grant_types", .arr [.str "authorization_code", .str "refresh_token"])], false⟩,
  ⟨1846, .obj [("grant_types", .obj [("superset_of", .arr [.str "authorization_code"]), ("essential", .bool true)])], .obj [("grant_types", .obj [("default", .arr [.str "authorization_code", .str "refresh_token"]), ("essential", .bool true)])], some (.obj [("grant_types", .obj [("superset_of", .arr [.str "authorization_code"]), ("default", .arr [.str "authorization_code", .str "refresh_token"]), ("essential", .bool true)])]), .obj [("grant_types", .arr [.str "authorization_code"])], .obj [("grant_types", .arr [.str "authorization_code"])], false⟩,
  ⟨1847, .obj [("grant_types", .obj [("superset_of", .arr [.str "authorization_code"]), ("essential", .bool true)])], .obj [("grant_types", .obj [("default", .arr [.str "authorization_code", .str "refresh_token"])])], some (.obj [("grant_types", .obj [("superset_of", .arr [.str "authorization_code"]), ("default", .arr [.str "authorization_code", .str "refresh_token"]), ("essential", .bool true)])]), .obj [("grant_types", .arr [.str "authorization_code"])], .obj [("grant_types", .arr [.str "authorization_code"])], false⟩,
  ⟨1848, .obj [("grant_types", .obj [("superset_of", .arr [.str "authorization_code"])])], .obj [("grant_types", .obj [("default", .arr [.str "authorization_code", .str "refresh_token"]), ("essential", .bool true)])], some (.obj [("grant_types", .obj [("superset_of", .arr [.str "authorization_code"]), ("default", .arr [.str "authorization_code", .str "refresh_token"]), ("essential", .bool true)])]), .obj [("grant_types", .arr [.str "authorization_code"])], .obj [("grant_types", .arr [.str "authorization_code"])], false⟩,
  ⟨1849, .obj [("grant_types", .obj [("superset_of", .arr [.str "authorization_code"])])], .obj [("grant_types", .obj [("default", .arr [.str "authorization_code", .str "refresh_token"])])], some (.obj [("grant_types", .obj [("superset_of", .arr [.str "authorization_code"]), ("default", .arr [.str "authorization_code", .str "refresh_token"])])]), .obj [("grant_types", .arr [.str "authorization_code"])], .obj [("grant_types", .arr [.str "authorization_code"])], false⟩,
  ⟨1850, .obj [("grant_types", .obj [("superset_of", .arr [.str "authorization_code"]), ("essential", .bool true)])], .obj [("grant_types", .obj [("default", .arr [.str "authorization_code", .str "refresh_token"]), ("essential", .bool true)])], some (.obj [("grant_types", .obj [("superset_of", .arr [.str "authorization_code"]), ("default", .arr [.str "authorization_code", .str "refresh_token"]), ("essential", .bool true)])]), .obj [("grant_types", .arr [.str "password"])], .obj [], true⟩,
  ⟨1851, .obj [("grant_types", .obj [("superset_of", .arr [.str "authorization_code"]), ("essential", .bool true)])], .obj [("grant_types", .obj [("default", .arr [.str "authorization_code", .str "refresh_token"])])], some (.obj [("grant_types", .obj [("superset_of", .arr [.str "authorization_code"]), ("default", .arr [.str "authorization_code", .str "refresh_token"]), ("essential", .bool true)])]), .obj [("grant_types", .arr [.str "password"])], .obj [], true⟩,
  ⟨1852, .obj [("grant_types", .obj [("superset_of", .arr [.str "authorization_code"])])], .obj [("grant_types", .obj [("default", .arr [.str "authorization_code", .str "refresh_token"]), ("essential", .bool true)])], some (.obj [("grant_types", .obj [("superset_of", .arr [.str "authorization_code"]), ("default", .arr [.str "authorization_code", .str "refresh_token"]), ("essential", .bool true)])]), .obj [("grant_types", .arr [.str "password"])], .obj [], true⟩,
  ⟨1853, .obj [("grant_types", .obj [("superset_of", .arr [.str "authorization_code"])])], .obj [("grant_types", .obj [("default", .arr [.str "authorization_code", .str "refresh_token"])])], some (.obj [("grant_types", .obj [("superset_of", .arr [.str "authorization_code"]), ("default", .arr [.str "authorization_code", .str "refresh_token"])])]), .obj [("grant_types", .arr [.str "password"])], .obj [], true⟩,
  ⟨1854, .obj [("grant_types", .obj [("superset_of", .arr [.str "authorization_code"]), ("essential", .bool true)])], .obj [("grant_types", .obj [("default", .arr [.str "authorization_code", .str "refresh_token"]), ("essential", .bool true)])], some (.obj [("grant_types", .obj [("superset_of", .arr [.str "authorization_code"]), ("default", .arr [.str "authorization_code", .str "refresh_token"]), ("essential", .bool true)])]), .obj [("grant_types", .arr [.str "authorization_code", .str "refresh_token"])], .obj [("grant_types", .arr [.str "authorization_code", .str "refresh_token"])], false⟩,
  ⟨1855, .obj [("grant_types", .obj [("superset_of", .arr [.str "authorization_code"]), ("essential", .bool true)])], .obj [("grant_types", .obj [("default", .arr [.str "authorization_code", .str "refresh_token"])])], some (.obj [("grant_types", .obj [("superset_of", .arr [.str "authorization_code"]), ("default", .arr [.str "authorization_code", .str "refresh_token"]), ("essential", .bool true)])]), .obj [("grant_types", .arr [.str "authorization_code", .str "refresh_token"])], .obj [("grant_types", .arr [.str "authorization_code", .str "refresh_token"])], false⟩,
  ⟨1856, .obj [("grant_types", .obj [("superset_of", .arr [.str "authorization_code"])])], .obj [("grant_types", .obj [("default", .arr [.str "authorization_code", .str "refresh_token"]), ("essential", .bool true)])], some (.obj [("grant_types", .obj [("superset_of", .arr [.str "authorization_code"]), ("default", .arr [.str "authorization_code", .str "refresh_token"]), ("essential", .bool true)])]), .obj [("grant_types", .arr [.str "authorization_code", .str "refresh_token"])], .obj [("grant_types", .arr [.str "authorization_code", .str "refresh_token"])], false⟩,
  ⟨1857, .obj [("grant_types", .obj [("superset_of", .arr [.str "authorization_code"])])], .obj [("grant_types", .obj [("default", .arr [.str "authorization_code", .str "refresh_token"])])], some (.obj [("grant_types", .obj [("superset_of", .arr [.str "authorization_code"]), ("default", .arr [.str "authorization_code", .str "refresh_token"])])]), .obj [("grant_types", .arr [.str "authorization_code", .str "refresh_token"])], .obj [("grant_types", .arr [.str "authorization_code", .str "refresh_token"])], false⟩,
  ⟨1858, .obj [("grant_types", .obj [("superset_of", .arr [.str "authorization_code"]), ("essential", .bool true)])], .obj [("grant_types", .obj [("default", .arr [.str "authorization_code", .str "refresh_token"]), ("essential", .bool true)])], some (.obj [("grant_types", .obj [("superset_of", .arr [.str "authorization_code"]), ("default", .arr [.str "authorization_code", .str "refresh_token"]), ("essential", .bool true)])]), .obj [("grant_types", .arr [.str "authorization_code", .str "password"])], .obj [("grant_types", .arr [.str "authorization_code", .str "password"])], false⟩,
  ⟨1859, .obj [("grant_types", .obj [("superset_of", .arr [.str "authorization_code"]), ("essential", .bool true)])], .obj [("grant_types", .obj [("default", .arr [.str "authorization_code", .str "refresh_token"])])], some (.obj [("grant_types", .obj [("superset_of", .arr [.str "authorization_code"]), ("default", .arr [.str "authorization_code", .str "refresh_token"]), ("essential", .bool true)])]), .obj [("grant_types", .arr [.str "authorization_code", .str "password"])], .obj [("grant_types", .arr [.str "authorization_code", .str "password"])], false⟩,
  ⟨1860, .obj [("grant_types", .obj [("superset_of", .arr [.str "authorization_code"])])], .obj [("grant_types", .obj [("default", .arr [.str "authorization_code", .str "refresh_token"]), ("essential", .bool true)])], some (.obj [("grant_types", .obj [("superset_of", .arr [.str "authorization_code"]), ("default", .arr [.str "authorization_code", .str "refresh_token"]), ("essential", .bool true)])]), .obj [("grant_types", .arr [.str "authorization_code", .str "password"])], .obj [("grant_types", .arr [.str "authorization_code", .str "password"])], false⟩,
  ⟨1861, .obj [("grant_types", .obj [("superset_of", .arr [.str "authorization_code"])])], .obj [("grant_types", .obj [("default", .arr [.str "authorization_code", .str "refresh_token"])])], some (.obj [("grant_types", .obj [("superset_of", .arr [.str "authorization_code"]), ("default", .arr [.str "authorization_code", .str "refresh_token"])])]), .obj [("grant_types", .arr [.str "authorization_code", .str "password"])], .obj [("grant_types", .arr [.str "authorization_code", .str "password"])], false⟩,
  ⟨1862, .obj [("grant_types", .obj [("superset_of", .arr [.str "authorization_code"]), ("essential", .bool true)])], .obj [("grant_types", .obj [("default", .arr [.str "authorization_code", .str "refresh_token"]), ("essential", .bool true)])], some (.obj [("grant_types", .obj [("superset_of", .arr [.str "authorization_code"]), ("default", .arr [.str "authorization_code", .str "refresh_token"]), ("essential", .bool true)])]), .obj [("grant_types", .arr [])], .obj [], true⟩,
  ⟨1863, .obj [("grant_types", .obj [("superset_of", .arr [.str "authorization_code"]), ("essential", .bool true)])], .obj [("grant_types", .obj [("default", .arr [.str "authorization_code", .str "refresh_token"])])], some (.obj [("grant_types", .obj [("superset_of", .arr [.str "authorization_code"]), ("default", .arr [.str "authorization_code", .str "refresh_token"]), ("essential", .bool true)])]), .obj [("grant_types", .arr [])], .obj [], true⟩,
  ⟨1864, .obj [("grant_types", .obj [("superset_of", .arr [.str "authorization_code"])])], .obj [("grant_types", .obj [("default", .arr [.str "authorization_code", .str "refresh_token"]), ("essential", .bool true)])], some (.obj [("grant_types", .obj [("superset_of", .arr [.str "authorization_code"]), ("default", .arr [.str "authorization_code", .str "refresh_token"]), ("essential", .bool true)])]), .obj [("grant_types", .arr [])], .obj [], true⟩,
  ⟨1865, .obj [("grant_types", .obj [("superset_of", .arr [.str "authorization_code"])])], .obj [("grant_types", .obj [("default", .arr [.str "authorization_code", .str "refresh_token"])])], some (.obj [("grant_types", .obj [("superset_of", .arr [.str "authorization_code"]), ("default", .arr [.str "authorization_code", .str "refresh_token"])])]), .obj [("grant_types", .arr [])], .obj [], true⟩,
  ⟨1866, .obj [("grant_types", .obj [("superset_of", .arr [.str "authorization_code"]), ("essential", .bool true)])], .obj [("grant_types", .obj [("default", .arr [.str "authorization_code", .str "refresh_token"]), ("essential", .bool true)])], some (.obj [("grant_types", .obj [("superset_of", .arr [.str "authorization_code"]), ("default", .arr [.str "authorization_code", .str "refresh_token"]), ("essential", .bool true)])]), .obj [], .obj [("grant_types", .arr [.str "authorization_code", .str "refresh_token"])], false⟩,
  ⟨1867, .obj [("grant_types", .obj [("superset_of", .arr [.str "authorization_code"]), ("essential", .bool true)])], .obj [("grant_types", .obj [("default", .arr [.str "authorization_code", .str "refresh_token"])])], some (.obj [("grant_types", .obj [("superset_of", .arr [.str "authorization_code"]), ("default", .arr [.str "authorization_code", .str "refresh_token"]), ("essential", .bool true)])]), .obj [], .obj [("grant_types", .arr [.str "authorization_code", .str "refresh_token"])], false⟩,
  ⟨1868, .obj [("grant_types", .obj [("superset_of", .arr [.str "authorization_code"])])], .obj [("grant_types", .obj [("default", .arr [.str "authorization_code", .str "refresh_token"]), ("essential", .bool true)])], some (.obj [("grant_types", .obj [("superset_of", .arr [.str "authorization_code"]), ("default", .arr [.str "authorization_code", .str "refresh_token"]), ("essential", .bool true)])]), .obj [], .obj [("grant_types", .arr [.str "authorization_code", .str "refresh_token"])], false⟩,
  ⟨1869, .obj [("grant_types", .obj [("superset_of", .arr [.str "authorization_code"])])], .obj [("grant_types", .obj [("default", .arr [.str "authorization_code", .str "refresh_token"])])], some (.obj [("grant_types", .obj [("superset_of", .arr [.str "authorization_code"]), ("default", .arr [.str "authorization_code", .str "refresh_token"])])]), .obj [], .obj [("grant_types", .arr [.str "authorization_code", .str "refresh_token"])], false⟩,
  ⟨1870, .obj [("grant_types", .obj [("superset_of", .arr []), ("essential", .bool true)])], .obj [("grant_types", .obj [("subset_of", .arr [.str "authorization_code"]), ("essential", .bool true)])], some (.obj [("grant_types", .obj [("superset_of", .arr []), ("subset_of", .arr [.str "authorization_code"]), ("essential", .bool true)])]), .obj [("grant_types", .arr [.str "authorization_code"])], .obj [("grant_types", .arr [.str "authorization_code"])], false⟩,
  ⟨1871, .obj [("grant_types", .obj [("superset_of", .arr []), ("essential", .bool true)])], .obj [("grant_types", .obj [("subset_of", .arr [.str "authorization_code"])])], some (.obj [("grant_types", .obj [("superset_of", .arr []), ("subset_of", .arr [.str "authorization_code"]), ("essential", .bool true)])]), .obj [("grant_types", .arr [.str "authorization_code"])], .obj [("grant_types", .arr [.str "authorization_code"])], false⟩,
  ⟨1872, .obj [("grant_types", .obj [("superset_of", .arr [])])], .obj [("grant_types", .obj [("subset_of", .arr [.str "authorization_code"]), ("essential", .bool true)])], some (.obj [("grant_types", .obj [("superset_of", .arr []), ("subset_of", .arr [.str "authorization_code"]), ("essential", .bool true)])]), .obj [("grant_types", .arr [.str "authorization_code"])], .obj [("grant_types", .arr [.str "authorization_code"])], false⟩,
  ⟨1873, .obj [("grant_types", .obj [("superset_of", .arr [])])], .obj [("grant_types", .obj [("subset_of", .arr [.str "authorization_code"])])], some (.obj [("grant_types", .obj [("superset_of", .arr []), ("subset_of", .arr [.str "authorization_code"])])]), .obj [("grant_types", .arr [.str "authorization_code"])], .obj [("grant_types", .arr [.str "authorization_code"])], false⟩,
  ⟨1874, .obj [("grant_types", .obj [("superset_of", .arr []), ("essential", .bool true)])], .obj [("grant_types", .obj [("subset_of", .arr [.str "authorization_code"]), ("essential", .bool true)])], some (.obj [("grant_types", .obj [("superset_of", .arr []), ("subset_of", .arr [.str "authorization_code"]), ("essential", .bool true)])]), .obj [("grant_types", .arr [.str "password"])], .obj [("grant_types", .arr [])], false⟩,
  ⟨1875, .obj [("grant_types", .obj [("superset_of", .arr []), ("essential", .bool true)])], .obj [("grant_types", .obj [("subset_of", .arr [.str "authorization_code"])])], some (.obj [("grant_types", .obj [("superset_of", .arr []), ("subset_of", .arr [.str "authorization_code"]), ("essential", .bool true)])]), .obj [("grant_types", .arr [.str "password"])], .obj [("grant_types", .arr [])], false⟩,
  ⟨1876, .obj [("grant_types", .obj [("superset_of", .arr [])])], .obj [("grant_types", .obj [("subset_of", .arr [.str "authorization_code"]), ("essential", .bool true)])], some (.obj [("grant_types", .obj [("superset_of", .arr []), ("subset_of", .arr [.str "authorization_code"]), ("essential", .bool true)])]), .obj [("grant_types", .arr [.str "password"])], .obj [("grant_types", .arr [])], false⟩,
  ⟨1877, .obj [("grant_types", .obj [("superset_of", .arr [])])], .obj [("grant_types", .obj [("subset_of", .arr [.str "authorization_code"])])], some (.obj [("grant_types", .obj [("superset_of", .arr []), ("subset_of", .arr [.str "authorization_code"])])]), .obj [("grant_types", .arr [.str "password"])], .obj [("grant_types", .arr [])], false⟩,
  ⟨1878, .obj [("grant_types", .obj [("superset_of", .arr []), ("essential", .bool true)])], .obj [("grant_types", .obj [("subset_of", .arr [.str "authorization_code"]), ("essential", .bool true)])], some (.obj [("grant_types", .obj [("superset_of", .arr []), ("subset_of", .arr [.str "authorization_code"]), ("essential", .bool true)])]), .obj [("grant_types", .arr [.str "authorization_code", .str "refresh_token"])], .obj [("grant_types", .arr [.str "authorization_code"])], false⟩,
  ⟨1879, .obj [("grant_types", .obj [("superset_of", .arr []), ("essential", .bool true)])], .obj [("grant_types", .obj [("subset_of", .arr [.str "authorization_code"])])], some (.obj [("grant_types", .obj [("superset_of", .arr []), ("subset_of", .arr [.str "authorization_code"]), ("essential", .bool true)])]), .obj [("grant_types", .arr [.str "authorization_code", .str "refresh_token"])], .obj [("grant_types", .arr [.str "authorization_code"])], false⟩,
  ⟨1880, .obj [("grant_types", .obj [("superset_of", .arr [])])], .obj [("grant_types", .obj [("subset_of", .arr [.str "authorization_code"]), ("essential", .bool true)])], some (.obj [("grant_types", .obj [("superset_of", .arr []), ("subset_of", .arr [.str "authorization_code"]), ("essential", .bool true)])]), .obj [("grant_types", .arr [.str "authorization_code", .str "refresh_token"])], .obj [("grant_types", .arr [.str "authorization_code"])], false⟩,
  ⟨1881, .obj [("grant_types", .obj [("superset_of", .arr [])])], .obj [("grant_types", .obj [("subset_of", .arr [.str "authorization_code"])])], some (.obj [("grant_types", .obj [("superset_of", .arr []), ("subset_of", .arr [.str "authorization_code"])])]), .obj [("grant_types", .arr [.str "authorization_code", .str "refresh_token"])], .obj [("grant_types", .arr [.str "authorization_code"])], false⟩,
  ⟨1882, .obj [("grant_types", .obj [("superset_of", .arr []), ("essential", .bool true)])], .obj [("grant_types", .obj [("subset_of", .arr [.str "authorization_code"]), ("essential", .bool true)])], some (.obj [("grant_types", .obj [("superset_of", .arr []), ("subset_of", .arr [.str "authorization_code"]), ("essential", .bool true)])]), .obj [("grant_types", .arr [.str "authorization_code", .str "password"])], .obj [("grant_types", .arr [.str "authorization_code"])], false⟩,
  ⟨1883, .obj [("grant_types", .obj [("superset_of", .arr []), ("essential", .bool true)])], .obj [("grant_types", .obj [("subset_of", .arr [.str "authorization_code"])])], some (.obj [("grant_types", .obj [("superset_of", .arr []), ("subset_of", .arr [.str "authorization_code"]), ("essential", .bool true)])]), .obj [("grant_types", .arr [.str "authorization_code", .str "password"])], .obj [("grant_types", .arr [.str "authorization_code"])], false⟩,
  ⟨1884, .obj [("grant_types", .obj [("superset_of", .arr [])])], .obj [("grant_types", .obj [("subset_of", .arr [.str "authorization_code"]), ("essential", .bool true)])], some (.obj [("grant_types", .obj [("superset_of", .arr []), ("subset_of", .arr [.str "authorization_code"]), ("essential", .bool true)])]), .obj [("grant_types", .arr [.str "authorization_code", .str "password"])], .obj [("grant_types", .arr [.str "authorization_code"])], false⟩,
  ⟨1885, .obj [("grant_types", .obj [("superset_of", .arr [])])], .obj [("grant_types", .obj [("subset_of", .arr [.str "authorization_code"])])], some (.obj [("grant_types", .obj [("superset_of", .arr []), ("subset_of", .arr [.str "authorization_code"])])]), .obj [("grant_types", .arr [.str "authorization_code", .str "password"])], .obj [("grant_types", .arr [.str "authorization_code"])], false⟩,
  ⟨1886, .obj [("grant_types", .obj [("superset_of", .arr []), ("essential", .bool true)])], .obj [("grant_types", .obj [("subset_of", .arr [.str "authorization_code"]), ("essential", .bool true)])], some (.obj [("grant_types", .obj [("superset_of", .arr []), ("subset_of", .arr [.str "authorization_code"]), ("essential", .bool true)])]), .obj [("grant_types", .arr [])], .obj [("grant_types", .arr [])], false⟩,
  ⟨1887, .obj [("grant_types", .obj [("superset_of", .arr []), ("essential", .bool true)])], .obj [("grant_types", .obj [("subset_of", .arr [.str "authorization_code"])])], some (.obj [("grant_types", .obj [("superset_of", .arr []), ("subset_of", .arr [.str "authorization_code"]), ("essential", .bool true)])]), .obj [("grant_types", .arr [])], .obj [("grant_types", .arr [])], false⟩,
  ⟨1888, .obj [("grant_types", .obj [("superset_of", .arr [])])], .obj [("grant_types", .obj [("subset_of", .arr [.str "authorization_code"]), ("essential", .bool true)])], some (.obj [("grant_types", .obj [("superset_of", .arr []), ("subset_of", .arr [.str "authorization_code"]), ("essential", .bool true)])]), .obj [("grant_types", .arr [])], .obj [("grant_types", .arr [])], false⟩,
  ⟨1889, .obj [("grant_types", .obj [("superset_of", .arr [])])], .obj [("grant_types", .obj [("subset_of", .arr [.str "authorization_code"])])], some (.obj [("grant_types", .obj [("superset_of", .arr []), ("subset_of", .arr [.str "authorization_code"])])]), .obj [("grant_types", .arr [])], .obj [("grant_types", .arr [])], false⟩,
  ⟨1890, .obj [("grant_types", .obj [("superset_of", .arr []), ("essential", .bool true)])], .obj [("grant_types", .obj [("subset_of", .arr [.str "authorization_code"]), ("essential", .bool true)])], some (.obj [("grant_types", .obj [("superset_of", .arr []), ("subset_of", .arr [.str "authorization_code"]), ("essential", .bool true)])]), .obj [], .obj [], true⟩,
  ⟨1891, .obj [("grant_types", .obj [("superset_of", .arr []), ("essential", .bool true)])], .obj [("grant_types", .obj [("subset_of", .arr [.str "authorization_code"])])], some (.obj [("grant_types", .obj [("superset_of", .arr []), ("subset_of", .arr [.str "authorization_code"]), ("essential", .bool true)])]), .obj [], .obj [], true⟩,
  ⟨1892, .obj [("grant_types", .obj [("superset_of", .arr [])])], .obj [("grant_types", .obj [("subset_of", .arr [.str "authorization_code"]), ("essential", .bool true)])], some (.obj [("grant_types", .obj [("superset_of", .arr []), ("subset_of", .arr [.str "authorization_code"]), ("essential", .bool true)])]), .obj [], .obj [], true⟩,
  ⟨1893, .obj [("grant_types", .obj [("superset_of", .arr [])])], .obj [("grant_types", .obj [("subset_of", .arr [.str "authorization_code"])])], some (.obj [("grant_types", .obj [("superset_of", .arr []), ("subset_of", .arr [.str "authorization_code"])])]), .obj [], .obj [], false⟩,
  ⟨1894, .obj [("grant_types", .obj [("superset_of", .arr []), ("essential", .bool true)])], .obj [("grant_types", .obj [("subset_of", .arr [.str "authorization_code", .str "refresh_token"]), ("essential", .bool true)])], some (.obj [("grant_types", .obj [("superset_of", .arr []), ("subset_of", .arr [.str "authorization_code", .str "refresh_token"]), ("essential", .bool true)])]), .obj [("grant_types", .arr [.str "authorization_code"])], .obj [("grant_types", .arr [.str "authorization_code"])], false⟩,
  ⟨1895, .obj [("grant_types", .obj [("superset_of", .arr []), ("essential", .bool true)])], .obj [("grant_types", .obj [("subset_of", .arr [.str "authorization_code", .str "refresh_token"])])], some (.obj [("grant_types", .obj [("superset_of", .arr []), ("subset_of", .arr [.str "authorization_code", .str "refresh_token"]), ("essential", .bool true)])]), .obj [("grant_types", .arr [.str "authorization_code"])], .obj [("grant_types", .arr [.str "authorization_code"])], false⟩,
  ⟨1896, .obj [("grant_types", .obj [("superset_of", .arr [])])], .obj [("grant_types", .obj [("subset_of", .arr [.str "authorization_code", .str "refresh_token"]), ("essential", .bool true)])], some (.obj [("grant_types", .obj [("superset_of", .arr []), ("subset_of", .arr [.str "authorization_code", .str "refresh_token"]), ("essential", .bool true)])]), .obj [("grant_types", .arr [.str "authorization_code"])], .obj [("grant_types", .arr [.str "authorization_code"])], false⟩,
  ⟨1897, .obj [("grant_types", .obj [("superset_of", .arr [])])], .obj [("grant_types", .obj [("subset_of", .arr [.str "authorization_code", .str "refresh_token"])])], some (.obj [("grant_types", .obj [("superset_of", .arr []), ("subset_of", .arr [.str "authorization_code", .str "refresh_token"])])]), .obj [("grant_types", .arr [.str "authorization_code"])], .obj [("grant_types", .arr [.str "authorization_code"])], false⟩,
  ⟨1898, .obj [("grant_types", .obj [("superset_of", .arr []), ("essential", .bool true)])], .obj [("grant_types", .obj [("subset_of", .arr [.str "authorization_code", .str "refresh_token"]), ("essential", .bool true)])], some (.obj [("grant_types", .obj [("superset_of", .arr []), ("subset_of", .arr [.str "authorization_code", .str "refresh_token"]), ("essential", .bool true)])]), .obj [("grant_types", .arr [.str "password"])], .obj [("grant_types", .arr [])], false⟩,
  ⟨1899, .obj [("grant_types", .obj [("superset_of", .arr []), ("essential", .bool true)])], .obj [("grant_types", .obj [("subset_of", .arr [.str "authorization_code", .str "refresh_token"])])], some (.obj [("grant_types", .obj [("superset_of", .arr []), ("subset_of", .arr [.str "authorization_code", .str "refresh_token"]), ("essential", .bool true)])]), .obj [("grant_types", .arr [.str "password"])], .obj [("grant_types", .arr [])], false⟩,
  ⟨1900, .obj [("grant_types", .obj [("superset_of", .arr [])])], .obj [("grant_types", .obj [("subset_of", .arr [.str "authorization_code", .str "refresh_token"]), ("essential", .bool true)])], some (.obj [("grant_types", .obj [("superset_of", .arr []), ("subset_of", .arr [.str "authorization_code", .str "refresh_token"]), ("essential", .bool true)])]), .obj [("grant_types", .arr [.str "password"])], .obj [("grant_types", .arr [])], false⟩,
  ⟨1901, .obj [("grant_types", .obj [("superset_of", .arr [])])], .obj [("grant_types", .obj [("subset_of", .arr [.str "authorization_code", .str "refresh_token"])])], some (.obj [("grant_types", .obj [("superset_of", .arr []), ("subset_of", .arr [.str "authorization_code", .str "refresh_token"])])]), .obj [("grant_types", .arr [.str "password"])], .obj [("grant_types", .arr [])], false⟩,
  ⟨1902, .obj [("grant_types", .obj [("superset_of", .arr []), ("essential", .bool true)])], .obj [("grant_types", .obj [("subset_of", .arr [.str "authorization_code", .str "refresh_token"]), ("essential", .bool true)])], some (.obj [("grant_types", .obj [("superset_of", .arr []), ("subset_of", .arr [.str "authorization_code", .str "refresh_token"]), ("essential", .bool true)])]), .obj [("grant_types", .arr [.str "authorization_code", .str "refresh_token"])], .obj [("grant_types", .arr [.str "authorization_code", .str "refresh_token"])], false⟩,
  ⟨1903, .obj [("grant_types", .obj [("superset_of", .arr []), ("essential", .bool true)])], .obj [("grant_types", .obj [("subset_of", .arr [.str "authorization_code", .str "refresh_token"])])], some (.obj [("grant_types", .obj [("superset_of", .arr []), ("subset_of", .arr [.str "authorization_code", .str "refresh_token"]), ("essential", .bool true)])]), .obj [("grant_types", .arr [.str "authorization_code", .str "refresh_token"])], .obj [("grant_types", .arr [.str "authorization_code", .str "refresh_token"])], false⟩,
  ⟨1904, .obj [("grant_types", .obj [("superset_of", .arr [])])], .obj [("grant_types", .obj [("subset_of", .arr [.str "authorization_code", .str "refresh_token"]), ("essential", .bool true)])], some (.obj [("grant_types", .obj [("superset_of", .arr []), ("subset_of", .arr [.str "authorization_code", .str "refresh_token"]), ("essential", .bool true)])]), .obj [("grant_types", .arr [.str "authorization_code", .str "refresh_token"])], .obj [("grant_types", .arr [.str "authorization_code", .str "refresh_token"])], false⟩,
  ⟨1905, .obj [("grant_types", .obj [("superset_of", .arr [])])], .obj [("grant_types", .obj [("subset_of", .arr [.str "authorization_code", .str "refresh_token"])])], some (.obj [("grant_types", .obj [("superset_of", .arr []), ("subset_of", .arr [.str "authorization_code", .str "refresh_token"])])]), .obj [("grant_types", .arr [.str "authorization_code", .str "refresh_token"])], .obj [("grant_types", .arr [.str "authorization_code", .str "refresh_token"])], false⟩,
  ⟨1906, .obj [("grant_types", .obj [("superset_of", .arr []), ("essential", .bool true)])], .obj [("grant_types", .obj [("subset_of", .arr [.str "authorization_code", .str "refresh_token"]), ("essential", .bool true)])], some (.obj [("grant_types", .obj [("superset_of", .arr []), ("subset_of", .arr [.str "authorization_code", .str "refresh_token"]), ("essential", .bool true)])]), .obj [("grant_types", .arr [.str "authorization_code", .str "password"])], .obj [("grant_types", .arr [.str "authorization_code"])], false⟩,
  ⟨1907, .obj [("grant_types", .obj [("superset_of", .arr []), ("essential", .bool true)])], .obj [("grant_types", .obj [("subset_of", .arr [.str "authorization_code", .str "refresh_token"])])], some (.obj [("grant_types", .obj [("superset_of", .arr []), ("subset_of", .arr [.str "authorization_code", .str "refresh_token"]), ("essential", .bool true)])]), .obj [("grant_types", .arr [.str "authorization_code", .str "password"])], .obj [("grant_types", .arr [.str "authorization_code"])], false⟩,
  ⟨1908, .obj [("grant_types", .obj [("superset_of", .arr [])])], .obj [("grant_types", .obj [("subset_of", .arr [.str "authorization_code", .str "refresh_token"]), ("essential", .bool true)])], some (.obj [("grant_types", .obj [("superset_of", .arr []), ("subset_of", .arr [.str "authorization_code", .str "refresh_token"]), ("essential", .bool true)])]), .obj [("grant_types", .arr [.str "authorization_code", .str "password"])], .obj [("grant_types", .arr [.str "authorization_code"])], false⟩,
  ⟨1909, .obj [("grant_types", .obj [("superset_of", .arr [])])], .obj [("grant_types", .obj [("subset_of", .arr [.str "authorization_code", .str "refresh_token"])])], some (.obj [("grant_types", .obj [("superset_of", .arr []), ("subset_of", .arr [.str "authorization_code", .str "refresh_token"])])]), .obj [("grant_types", .arr [.str "authorization_code", .str "password"])], .obj [("grant_types", .arr [.str "authorization_code"])], false⟩,
  ⟨1910, .obj [("grant_types", .obj [("superset_of", .arr []), ("essential", .bool true)])], .obj [("grant_types", .obj [("subset_of", .arr [.str "authorization_code", .str "refresh_token"]), ("essential", .bool true)])], some (.obj [("grant_types", .obj [("superset_of", .arr []), ("subset_of", .arr [.str "authorization_code", .str "refresh_token"]), ("essential", .bool true)])]), .obj [("grant_types", .arr [])], .obj [("grant_types", .arr [])], false⟩,
  ⟨1911, .obj [("grant_types", .obj [("superset_of", .arr []), ("essential", .bool true)])], .obj [("grant_types", .obj [("subset_of", .arr [.str "authorization_code", .str "refresh_token"])])], some (.obj [("grant_types", .obj [("superset_of", .arr []), ("subset_of", .arr [.str "authorization_code", .str "refresh_token"]), ("essential", .bool true)])]), .obj [("grant_types", .arr [])], .obj [("grant_types", .arr [])], false⟩,
  ⟨1912, .obj [("grant_types", .obj [("superset_of", .arr [])])], .obj [("grant_types", .obj [("subset_of", .arr [.str "authorization_code", .str "refresh_token"]), ("essential", .bool true)])], some (.obj [("grant_types", .obj [("superset_of", .arr []), ("subset_of", .arr [.str "authorization_code", .str "refresh_token"]), ("essential", .bool true)])]), .obj [("grant_types", .arr [])], .obj [("grant_types", .arr [])], false⟩,
  ⟨1913, .obj [("grant_types", .obj [("superset_of", .arr [])])], .obj [("grant_types", .obj [("subset_of", .arr [.str "authorization_code", .str "refresh_token"])])], some (.obj [("grant_types", .obj [("superset_of", .arr []), ("subset_of", .arr [.str "authorization_code", .str "refresh_token"])])]), .obj [("grant_types", .arr [])], .obj [("grant_types", .arr [])], false⟩,
  ⟨1914, .obj [("grant_types", .obj [("superset_of", .arr []), ("essential", .bool true)])], .obj [("grant_types", .obj [("subset_of", .arr [.str "authorization_code", .str "refresh_token"]), ("essential", .bool true)])], some (.obj [("grant_types", .obj [("superset_of", .arr []), ("subset_of", .arr [.str "authorization_code", .str "refresh_token"]), ("essential", .bool true)])]), .obj [], .obj [], true⟩,
  ⟨1915, .obj [("grant_types", .obj [("superset_of", .arr []), ("essential", .bool true)])], .obj [("grant_types", .obj [("subset_of", .arr [.str "authorization_code", .str "refresh_token"])])], some (.obj [("grant_types", .obj [("superset_of", .arr []), ("subset_of", .arr [.str "authorization_code", .str "refresh_token"]), ("essential", .bool true)])]), .obj [], .obj [], true⟩,
  ⟨1916, .obj [("grant_types", .obj [("superset_of", .arr [])])], .obj [("grant_types", .obj [("subset_of", .arr [.str "authorization_code", .str "refresh_token"]), ("essential", .bool true)])], some (.obj [("grant_types", .obj [("superset_of", .arr []), ("subset_of", .arr [.str "authorization_code", .str "refresh_token"]), ("essential", .bool true)])]), .obj [], .obj [], true⟩,
  ⟨1917, .obj [("grant_types", .obj [("superset_of", .arr [])])], .obj [("grant_types", .obj [("subset_of", .arr [.str "authorization_code", .str "refresh_token"])])], some (.obj [("grant_types", .obj [("superset_of", .arr []), ("subset_of", .arr [.str "authorization_code", .str "refresh_token"])])]), .obj [], .obj [], false⟩,
  ⟨1918, .obj [("grant_types", .obj [("superset_of", .arr [.str "authorization_code"]), ("essential", .bool true)])], .obj [("grant_types", .obj [("subset_of", .arr [.str "authorization_code", .str "refresh_token"]), ("essential", .bool true)])], some (.obj [("grant_types", .obj [("superset_of", .arr [.str "authorization_code"]), ("subset_of", .arr [.str "authorization_code", .str "refresh_token"]), ("essential", .bool true)])]), .obj [("grant_types", .arr [.str "authorization_code"])], .obj [("grant_types", .arr [.str "authorization_code"])], false⟩,
  ⟨1919, .obj [("grant_types", .obj [("superset_of", .arr [.str "authorization_code"]), ("essential", .bool true)])], .obj [("grant_types", .obj [("subset_of", .arr [.str "authorization_code", .str "refresh_token"])])], some (.obj [("grant_types", .obj [("superset_of", .arr [.str "authorization_code"]), ("subset_of", .arr [.str "authorization_code", .str "refresh_token"]), ("essential", .bool true)])]), .obj [("grant_types", .arr [.str "authorization_code"])], .obj [("grant_types", .arr [.str "authorization_code"])], false⟩,
  ⟨1920, .obj [("grant_types", .obj [("superset_of", .arr [.str "authorization_code"])])], .obj [("grant_types", .obj [("subset_of", .arr [.str "authorization_code", .str "refresh_token"]), ("essential", .bool true)])], some (.obj [("grant_types", .obj [("superset_of", .arr [.str "authorization_code"]), ("subset_of", .arr [.str "authorization_code", .str "refresh_token"]), ("essential", .bool true)])]), .obj [("grant_types", .arr [.str "authorization_code"])], .obj [("grant_types", .arr [.str "authorization_code"])], false⟩,
  ⟨1921, .obj [("grant_types", .obj [("superset_of", .arr [.str "authorization_code"])])], .obj [("grant_types", .obj [("subset_of", .arr [.str "authorization_code", .str "refresh_token"])])], some (.obj [("grant_types", .obj [("superset_of", .arr [.str "authorization_code"]), ("subset_of", .arr [.str "authorization_code", .str "refresh_token"])])]), .obj [("grant_types", .arr [.str "authorization_code"])], .obj [("grant_types", .arr [.str "authorization_code"])], false⟩,
  ⟨1922, .obj [("grant_types", .obj [("superset_of", .arr [.str "authorization_code"]), ("essential", .bool true)])], .obj [("grant_types", .obj [("subset_of", .arr [.str "authorization_code", .str "refresh_token"]), ("essential", .bool true)])], some (.obj [("grant_types", .obj [("superset_of", .arr [.str "authorization_code"]), ("subset_of", .arr [.str "authorization_code", .str "refresh_token"]), ("essential", .bool true)])]), .obj [("grant_types", .arr [.str "password"])], .obj [], true⟩,
  ⟨1923, .obj [("grant_types", .obj [("superset_of", .arr [.str "authorization_code"]), ("essential", .bool true)])], .obj [("grant_types", .obj [("subset_of", .arr [.str "authorization_code", .str "refresh_token"])])], some (.obj [("grant_types", .obj [("superset_of", .arr [.str "authorization_code"]), ("subset_of", .arr [.str "authorization_code", .str "refresh_token"]), ("essential", .bool true)])]), .obj [("grant_types", .arr [.str "password"])], .obj [], true⟩,
  ⟨1924, .obj [("grant_types", .obj [("superset_of", .arr [.str "authorization_code"])])], .obj [("grant_types", .obj [("subset_of", .arr [.str "authorization_code", .str "refresh_token"]), ("essential", .bool true)])], some (.obj [("grant_types", .obj [("superset_of", .arr [.str "authorization_code"]), ("subset_of", .arr [.str "authorization_code", .str "refresh_token"]), ("essential", .bool true)])]), .obj [("grant_types", .arr [.str "password"])], .obj [], true⟩,
  ⟨1925, .obj [("grant_types", .obj [("superset_of", .arr [.str "authorization_code"])])], .obj [("grant_types", .obj [("subset_of", .arr [.str "authorization_code", .str "refresh_token"])])], some (.obj [("grant_types", .obj [("superset_of", .arr [.str "authorization_code"]), ("subset_of", .arr [.str "authorization_code", .str "refresh_token"])])]), .obj [("grant_types", .arr [.str "password"])], .obj [], true⟩,
  ⟨1926, .obj [("grant_types", .obj [("superset_of", .arr [.str "authorization_code"]), ("essential", .bool true)])], .obj [("grant_types", .obj [("subset_of", .arr [.str "authorization_code", .str "refresh_token"]), ("essential", .bool true)])], some (.obj [("grant_types", .obj [("superset_of", .arr [.str "authorization_code"]), ("subset_of", .arr [.str "authorization_code", .str "refresh_token"]), ("essential", .bool true)])]), .obj [("grant_types", .arr [.str "authorization_code", .str "refresh_token"])], .obj [("grant_types", .arr [.str "authorization_code", .str "refresh_token"])], false⟩,
  ⟨1927, .obj [("grant_types", .obj [("superset_of", .arr [.str "authorization_code"]), ("essential", .bool true)])], .obj [("grant_types", .obj [("subset_of", .arr [.str "authorization_code", .str "refresh_token"])])], some (.obj [("grant_types", .obj [("superset_of", .arr [.str "authorization_code"]), ("subset_of", .arr [.str "authorization_code", .str "refresh_token"]), ("essential", .bool true)])]), .obj [("grant_types", .arr [.str "authorization_code", .str "refresh_token"])], .obj [("grant_types", .arr [.str "authorization_code", .str "refresh_token"])], false⟩,
  ⟨1928, .obj [("grant_types", .obj [("superset_of", .arr [.str "authorization_code"])])], .obj [("grant_types", .obj [("subset_of", .arr [.str "authorization_code", .str "refresh_token"]), ("essential", .bool true)])], some (.obj [("grant_types", .obj [("superset_of", .arr [.str "authorization_code"]), ("subset_of", .arr [.str "authorization_code", .str "refresh_token"]), ("essential", .bool true)])]), .obj [("grant_types", .arr [.str "authorization_code", .str "refresh_token"])], .obj [("grant_types", .arr [.str "authorization_code", .str "refresh_token"])], false⟩,
  ⟨1929, .obj [("grant_types", .obj [("superset_of", .arr [.str "authorization_code"])])], .obj [("grant_types", .obj [("subset_of", .arr [.str "authorization_code", .str "refresh_token"])])], some (.obj [("grant_types", .obj [("superset_of", .arr [.str "authorization_code"]), ("subset_of", .arr [.str "authorization_code", .str "refresh_token"])])]), .obj [("grant_types", .arr [.str "authorization_code", .str "refresh_token"])], .obj [("grant_types", .arr [.str "authorization_code", .str "refresh_token"])], false⟩,
  ⟨1930, .obj [("grant_types", .obj [("superset_of", .arr [.str "authorization_code"]), ("essential", .bool true)])], .obj [("grant_types", .obj [("subset_of", .arr [.str "authorization_code", .str "refresh_token"]), ("essential", .bool true)])], some (.obj [("grant_types", .obj [("superset_of", .arr [.str "authorization_code"]), ("subset_of", .arr [.str "authorization_code", .str "refresh_token"]), ("essential", .bool true)])]), .obj [("grant_types", .arr [.str "authorization_code", .str "password"])], .obj [("grant_types", .arr [.str "authorization_code"])], false⟩,
  ⟨1931, .obj [("grant_types", .obj [("superset_of", .arr [.str "authorization_code"]), ("essential", .bool true)])], .obj [("grant_types", .obj [("subset_of", .arr [.str "authorization_code", .str "refresh_token"])])], some (.obj [("grant_types", .obj [("superset_of", .arr [.str "authorization_code"]), ("subset_of", .arr [.str "authorization_code", .str "refresh_token"]), ("essential", .bool true)])]), .obj [("grant_types", .arr [.str "authorization_code", .str "password"])], .obj [("grant_types", .arr [.str "authorization_code"])], false⟩,
  ⟨1932, .obj [("grant_types", .obj [("superset_of", .arr [.str "authorization_code"])])], .obj [("grant_types", .obj [("subset_of", .arr [.str "authorization_code", .str "refresh_token"]), ("essential", .bool true)])], some (.obj [("grant_types", .obj [("superset_of", .arr [.str "authorization_code"]), ("subset_of", .arr [.str "authorization_code", .str "refresh_token"]), ("essential", .bool true)])]), .obj [("grant_types", .arr [.str "authorization_code", .str "password"])], .obj [("grant_types", .arr [.str "authorization_code"])], false⟩,
  ⟨1933, .obj [("grant_types", .obj [("superset_of", .arr [.str "authorization_code"])])], .obj [("grant_types", .obj [("subset_of", .arr [.str "authorization_code", .str "refresh_token"])])], some (.obj [("grant_types", .obj [("superset_of", .arr [.str "authorization_code"]), ("subset_of", .arr [.str "authorization_code", .str "refresh_token"])])]), .obj [("grant_types", .arr [.str "authorization_code", .str "password"])], .obj [("grant_types", .arr [.str "authorization_code"])], false⟩,
  ⟨1934, .obj [("grant_types", .obj [("superset_of", .arr [.str "authorization_code"]), ("essential", .bool true)])], .obj [("grant_types", .obj [("subset_of", .arr [.str "authorization_code", .str "refresh_token"]), ("essential", .bool true)])], some (.obj [("grant_types", .obj [("superset_of", .arr [.str "authorization_code"]), ("subset_of", .arr [.str "authorization_code", .str "refresh_token"]), ("essential", .bool true)])]), .obj [("grant_types", .arr [])], .obj [], true⟩,
  ⟨1935, .obj [("grant_types", .obj [("superset_of", .arr [.str "authorization_code"]), ("essential", .bool true)])], .obj [("grant_types", .obj [("subset_of", .arr [.str "authorization_code", .str "refresh_token"])])], some (.obj [("grant_types", .obj [("superset_of", .arr [.str "authorization_code"]), ("subset_of", .arr [.str "authorization_code", .str "refresh_token"]), ("essential", .bool true)])]), .obj [("grant_types", .arr [])], .obj [], true⟩,
  ⟨1936, .obj [("grant_types", .obj [("superset_of", .arr [.str "authorization_code"])])], .obj [("grant_types", .obj [("subset_of", .arr [.str "authorization_code", .str "refresh_token"]), ("essential", .bool true)])], some (.obj [("grant_types", .obj [("superset_of", .arr [.str "authorization_code"]), ("subset_of", .arr [.str "authorization_code", .str "refresh_token"]), ("essential", .bool true)])]), .obj [("grant_types", .arr [])], .obj [], true⟩,
  ⟨1937, .obj [("grant_types", .obj [("superset_of", .arr [.str "authorization_code"])])], .obj [("grant_types", .obj [("subset_of", .arr [.str "authorization_code", .str "refresh_token"])])], some (.obj [("grant_types", .obj [("superset_of", .arr [.str "authorization_code"]), ("subset_of", .arr [.str "authorization_code", .str "refresh_token"])])]), .obj [("grant_types", .arr [])], .obj [], true⟩,
  ⟨1938, .obj [("grant_types", .obj [("superset_of", .arr [.str "authorization_code"]), ("essential", .bool true)])], .obj [("grant_types", .obj [("subset_of", .arr [.str "authorization_code", .str "refresh_token"]), ("essential", .bool true)])], some (.obj [("grant_types", .obj [("superset_of", .arr [.str "authorization_code"]), ("subset_of", .arr [.str "authorization_code", .str "refresh_token"]), ("essential", .bool true)])]), .obj [], .obj [], true⟩,
  ⟨1939, .obj [("grant_types", .obj [("superset_of", .arr [.str "authorization_code"]), ("essential", .bool true)])], .obj [("grant_types", .obj [("subset_of", .arr [.str "authorization_code", .str "refresh_token"])])], some (.obj [("grant_types", .obj [("superset_of", .arr [.str "authorization_code"]), ("subset_of", .arr [.str "authorization_code", .str "refresh_token"]), ("essential", .bool true)])]), .obj [], .obj [], true⟩,
  ⟨1940, .obj [("grant_types", .obj [("superset_of", .arr [.str "authorization_code"])])], .obj [("grant_types", .obj [("subset_of", .arr [.str "authorization_code", .str "refresh_token"]), ("essential", .bool true)])], some (.obj [("grant_types", .obj [("superset_of", .arr [.str "authorization_code"]), ("subset_of", .arr [.str "authorization_code", .str "refresh_token"]), ("essential", .bool true)])]), .obj [], .obj [], true⟩,
  ⟨1941, .obj [("grant_types", .obj [("superset_of", .arr [.str "authorization_code"])])], .obj [("grant_types", .obj [("subset_of", .arr [.str "authorization_code", .str "refresh_token"])])], some (.obj [("grant_types", .obj [("superset_of", .arr [.str "authorization_code"]), ("subset_of", .arr [.str "authorization_code", .str "refresh_token"])])]), .obj [], .obj [], false⟩,
  ⟨1942, .obj [("grant_types", .obj [("superset_of", .arr []), ("essential", .bool true)])], .obj [("grant_types", .obj [("superset_of", .arr [.str "authorization_code"]), ("essential", .bool true)])], some (.obj [("grant_types", .obj [("superset_of", .arr [.str "authorization_code"]), ("essential", .bool true)])]), .obj [("grant_types", .arr [.str "authorization_code"])], .obj [("grant_types", .arr [.str "authorization_code"])], false⟩,
  ⟨1943, .obj [("grant_types", .obj [("superset_of", .arr []), ("essential", .bool true)])], .obj [("grant_types", .obj [("superset_of", .arr [.str "authorization_code"])])], some (.obj [("grant_types", .obj [("superset_of", .arr [.str "authorization_code"]), ("essential", .bool true)])]), .obj [("grant_types", .arr [.str "authorization_code"])], .obj [("grant_types", .arr [.str "authorization_code"])], false⟩,
  ⟨1944, .obj [("grant_types", .obj [("superset_of", .arr [])])], .obj [("grant_types", .obj [("superset_of", .arr [.str "authorization_code"]), ("essential", .bool true)])], some (.obj [("grant_types", .obj [("superset_of", .arr [.str "authorization_code"]), ("essential", .bool true)])]), .obj [("grant_types", .arr [.str "authorization_code"])], .obj [("grant_types", .arr [.str "authorization_code"])], false⟩,
  ⟨1945, .obj [("grant_types", .obj [("superset_of", .arr [])])], .obj [("grant_types", .obj [("superset_of", .arr [.str "authorization_code"])])], some (.obj [("grant_types", .obj [("superset_of", .arr [.str "authorization_code"])])]), .obj [("grant_types", .arr [.str "authorization_code"])], .obj [("grant_types", .arr [.str "authorization_code"])], false⟩,
  ⟨1946, .obj [("grant_types", .obj [("superset_of", .arr []), ("essential", .bool true)])], .obj [("grant_types", .obj [("superset_of", .arr [.str "authorization_code"]), ("essential", .bool true)])], some (.obj [("grant_types", .obj [("superset_of", .arr [.str "authorization_code"]), ("essential", .bool true)])]), .obj [("grant_types", .arr [.str "password"])], .obj [], true⟩,
  ⟨1947, .obj [("grant_types", .obj [("superset_of", .arr []), ("essential", .bool true)])], .obj [("grant_types", .obj [("superset_of", .arr [.str "authorization_code"])])], some (.obj [("grant_types", .obj [("superset_of", .arr [.str "authorization_code"]), ("essential", .bool true)])]), .obj [("grant_types", .arr [.str "password"])], .obj [], true⟩,
  ⟨1948, .obj [("grant_types", .obj [("superset_of", .arr [])])], .obj [("grant_types", .obj [("superset_of", .arr [.str "authorization_code"]), ("essential", .bool true)])], some (.obj [("grant_types", .obj [("superset_of", .arr [.str "authorization_code"]), ("essential", .bool true)])]), .obj [("grant_types", .arr [.str "password"])], .obj [], true⟩,
  ⟨1949, .obj [("grant_types", .obj [("superset_of", .arr [])])], .obj [("grant_types", .obj [("superset_of", .arr [.str "authorization_code"])])], some (.obj [("grant_types", .obj [("superset_of", .arr [.str "authorization_code"])])]), .obj [("grant_types", .arr [.str "password"])], .obj [], true⟩,
  ⟨1950, .obj [("grant_types", .obj [("superset_of", .arr []), ("essential", .bool true)])], .obj [("grant_types", .obj [("superset_of", .arr [.str "authorization_code"]), ("essential", .bool true)])], some (.obj [("grant_types", .obj [("superset_of", .arr [.str "authorization_code"]), ("essential", .bool true)])]), .obj [("grant_types", .arr [.str "authorization_code", .str "refresh_token"])], .obj [("grant_types", .arr [.str "authorization_code", .str "refresh_token"])], false⟩,
  ⟨1951, .obj [("grant_types", .obj [("superset_of", .arr []), ("essential", .bool true)])], .obj [("grant_types", .obj [("superset_of", .arr [.str "authorization_code"])])], some (.obj [("grant_types", .obj [("superset_of", .arr [.str "authorization_code"]), ("essential", .bool true)])]), .obj [("grant_types", .arr [.str "authorization_code", .str "refresh_token"])], .obj [("grant_types", .arr [.str "authorization_code", .str "refresh_token"])], false⟩,
  ⟨1952, .obj [("grant_types", .obj [("superset_of", .arr [])])], .obj [("grant_types", .obj [("superset_of", .arr [.str "authorization_code"]), ("essential", .bool true)])], some (.obj [("grant_types", .obj [("superset_of", .arr [.str "authorization_code"]), ("essential", .bool true)])]), .obj [("grant_types", .arr [.str "authorization_code", .str "refresh_token"])], .obj [("grant_types", .arr [.str "authorization_code", .str "refresh_token"])], false⟩,
  ⟨1953, .obj [("grant_types", .obj [("superset_of", .arr [])])], .obj [("grant_types", .obj [("superset_of", .arr [.str "authorization_code"])])], some (.obj [("grant_types", .obj [("superset_of", .arr [.str "authorization_code"])])]), .obj [("grant_types", .arr [.str "authorization_code", .str "refresh_token"])], .obj [("grant_types", .arr [.str "authorization_code", .str "refresh_token"])], false⟩,
  ⟨1954, .obj [("grant_types", .obj [("superset_of", .arr []), ("essential", .bool true)])], .obj [("grant_types", .obj [("superset_of", .arr [.str "authorization_code"]), ("essential", .bool true)])], some (.obj [("grant_types", .obj [("superset_of", .arr [.str "authorization_code"]), ("essential", .bool true)])]), .obj [("grant_types", .arr [.str "authorization_code", .str "password"])], .obj [("grant_types", .arr [.str "authorization_code", .str "password"])], false⟩,
  ⟨1955, .obj [("grant_types", .obj [("superset_of", .arr []), ("essential", .bool true)])], .obj [("grant_types", .obj [("superset_of", .arr [.str "authorization_code"])])], some (.obj [("grant_types", .obj [("superset_of", .arr [.str "authorization_code"]), ("essential", .bool true)])]), .obj [("grant_types", .arr [.str "authorization_code", .str "password"])], .obj [("grant_types", .arr [.str "authorization_code", .str "password"])], false⟩,
  ⟨1956, .obj [("grant_types", .obj [("superset_of", .arr [])])], .obj [("grant_types", .obj [("superset_of", .arr [.str "authorization_code"]), ("essential", .bool true)])], some (.obj [("grant_types", .obj [("superset_of", .arr [.str "authorization_code"]), ("essential", .bool true)])]), .obj [("grant_types", .arr [.str "authorization_code", .str "password"])], .obj [("grant_types", .arr [.str "authorization_code", .str "password"])], false⟩,
  ⟨1957, .obj [("grant_types", .obj [("superset_of", .arr [])])], .obj [("grant_types", .obj [("superset_of", .arr [.str "authorization_code"])])], some (.obj [("grant_types", .obj [("superset_of", .arr [.str "authorization_code"])])]), .obj [("grant_types", .arr [.str "authorization_code", .str "password"])], .obj [("grant_types", .arr [.str "authorization_code", .str "password"])], false⟩,
  ⟨1958, .obj [("grant_types", .obj [("superset_of", .arr []), ("essential", .bool true)])], .obj [("grant_types", .obj [("superset_of", .arr [.str "authorization_code"]), ("essential", .bool true)])], some (.obj [("grant_types", .obj [("superset_of", .arr [.str "authorization_code"]), ("essential", .bool true)])]), .obj [("grant_types", .arr [])], .obj [], true⟩,
  ⟨1959, .obj [("grant_types", .obj [("superset_of", .arr []), ("essential", .bool true)])], .obj [("grant_types", .obj [("superset_of", .arr [.str "authorization_code"])])], some (.obj [("grant_types", .obj [("superset_of", .arr [.str "authorization_code"]), ("essential", .bool true)])]), .obj [("grant_types", .arr [])], .obj [], true⟩,
  ⟨1960, .obj [("grant_types", .obj [("superset_of", .arr [])])], .obj [("grant_types", .obj [("superset_of", .arr [.str "authorization_code"]), ("essential", .bool true)])], some (.obj [("grant_types", .obj [("superset_of", .arr [.str "authorization_code"]), ("essential", .bool true)])]), .obj [("grant_types", .arr [])], .obj [], true⟩,
  ⟨1961, .obj [("grant_types", .obj [("superset_of", .arr [])])], .obj [("grant_types", .obj [("superset_of", .arr [.str "authorization_code"])])], some (.obj [("grant_types", .obj [("superset_of", .arr [.str "authorization_code"])])]), .obj [("grant_types", .arr [])], .obj [], true⟩,
  ⟨1962, .obj [("grant_types", .obj [("superset_of", .arr []), ("essential", .bool true)])], .obj [("grant_types", .obj [("superset_of", .arr [.str "authorization_code"]), ("essential", .bool true)])], some (.obj [("grant_types", .obj [("superset_of", .arr [.str "authorization_code"]), ("essential", .bool true)])]), .obj [], .obj [], true⟩,
  ⟨1963, .obj [("grant_types", .obj [("superset_of", .arr []), ("essential", .bool true)])], .obj [("grant_types", .obj [("superset_of", .arr [.str "authorization_code"])])], some (.obj [("grant_types", .obj [("superset_of", .arr [.str "authorization_code"]), ("essential", .bool true)])]), .obj [], .obj [], true⟩,
  ⟨1964, .obj [("grant_types", .obj [("superset_of", .arr [])])], .obj [("grant_types", .obj [("superset_of", .arr [.str "authorization_code"]), ("essential", .bool true)])], some (.obj [("grant_types", .obj [("superset_of", .arr [.str "authorization_code"]), ("essential", .bool true)])]), .obj [], .obj [], true⟩,
  ⟨1965, .obj [("grant_types", .obj [("superset_of", .arr [])])], .obj [("grant_types", .obj [("superset_of", .arr [.str "authorization_code"])])], some (.obj [("grant_types", .obj [("superset_of", .arr [.str "authorization_code"])])]), .obj [], .obj [], false⟩,
  ⟨1966, .obj [("grant_types", .obj [("superset_of", .arr []), ("essential", .bool true)])], .obj [("grant_types", .obj [("superset_of", .arr [.str "authorization_code", .str "refresh_token"]), ("essential", .bool true)])], some (.obj [("grant_types", .obj [("superset_of", .arr [.str "authorization_code", .str "refresh_token"]), ("essential", .bool true)])]), .obj [("grant_types", .arr [.str "authorization_code"])], .obj [], true⟩,
  ⟨1967, .obj [("grant_types", .obj [("superset_of", .arr []), ("essential", .bool true)])], .obj [("grant_types", .obj [("superset_of", .arr [.str "authorization_code", .str "refresh_token"])])], some (.obj [("grant_types", .obj [("superset_of", .arr [.str "authorization_code", .str "refresh_token"]), ("essential", .bool true)])]), .obj [("grant_types", .arr [.str "authorization_code"])], .obj [], true⟩,
  ⟨1968, .obj [("grant_types", .obj [("superset_of", .arr [])])], .obj [("grant_types", .obj [("superset_of", .arr [.str "authorization_code", .str "refresh_token"]), ("essential", .bool true)])], some (.obj [("grant_types", .obj [("superset_of", .arr [.str "authorization_code", .str "refresh_token"]), ("essential", .bool true)])]), .obj [("grant_types", .arr [.str "authorization_code"])], .obj [], true⟩,
  ⟨1969, .obj [("grant_types", .obj [("superset_of", .arr [])])], .obj [("grant_types", .obj [("superset_of", .arr [.str "authorization_code", .str "refresh_token"])])], some (.obj [("grant_types", .obj [("superset_of", .arr [.str "authorization_code", .str "refresh_token"])])]), .obj [("grant_types", .arr [.str "authorization_code"])], .obj [], true⟩,
  ⟨1970, .obj [("grant_types", .obj [("superset_of", .arr []), ("essential", .bool true)])], .obj [("grant_types", .obj [("superset_of", .arr [.str "authorization_code", .str "refresh_token"]), ("essential", .bool true)])], some (.obj [("grant_types", .obj [("superset_of", .arr [.str "authorization_code", .str "refresh_token"]), ("essential", .bool true)])]), .obj [("grant_types", .arr [.str "password"])], .obj [], true⟩,
  ⟨1971, .obj [("grant_types", .obj [("superset_of", .arr []), ("essential", .bool true)])], .obj [("grant_types", .obj [("superset_of", .arr [.str "authorization_code", .str "refresh_token"])])], some (.obj [("grant_types", .obj [("superset_of", .arr [.str "authorization_code", .str "refresh_token"]), ("essential", .bool true)])]), .obj [("grant_types", .arr [.str "password"])], .obj [], true⟩,
  ⟨1972, .obj [("grant_types", .obj [("superset_of", .arr [])])], .obj [("grant_types", .obj [("superset_of", .arr [.str "authorization_code", .str "refresh_token"]), ("essential", .bool true)])], some (.obj [("grant_types", .obj [("superset_of", .arr [.str "authorization_code", .str "refresh_token"]), ("essential", .bool true)])]), .obj [("grant_types", .arr [.str "password"])], .obj [], true⟩,
  ⟨1973, .obj [("grant_types", .obj [("superset_of", .arr [])])], .obj [("grant_types", .obj [("superset_of", .arr [.str "authorization_code", .str "refresh_token"])])], some (.obj [("grant_types", .obj [("superset_of", .arr [.str "authorization_code", .str "refresh_token"])])]), .obj [("grant_types", .arr [.str "password"])], .obj [], true⟩,
  ⟨1974, .obj [("grant_types", .obj [("superset_of", .arr []), ("essential", .bool true)])], .obj [("grant_types", .obj [("superset_of", .arr [.str "authorization_code", .str "refresh_token"]), ("essential", .bool true)])], some (.obj [("grant_types", .obj [("superset_of", .arr [.str "authorization_code", .str "refresh_token"]), ("essential", .bool true)])]), .obj [("grant_types", .arr [.str "authorization_code", .str "refresh_token"])], .obj [("grant_types", .arr [.str "authorization_code", .str "refresh_token"])], false⟩,
  ⟨1975, .obj [("grant_types", .obj [("superset_of", .arr []), ("essential", .bool true)])], .obj [("grant_types", .obj [("superset_of", .arr [.str "authorization_code", .str "refresh_token"])])], some (.obj [("grant_types", .obj [("superset_of", .arr [.str "authorization_code", .str "refresh_token"]), ("essential", .bool true)])]), .obj [("grant_types", .arr [.str "authorization_code", .str "refresh_token"])], .obj [("grant_types", .arr [.str "authorization_code", .str "refresh_token"])], false⟩,
  ⟨1976, .obj [("grant_types", .obj [("superset_of", .arr [])])], .obj [("grant_types", .obj [("superset_of", .arr [.str "authorization_code", .str "refresh_token"]), ("essential", .bool true)])], some (.obj [("grant_types", .obj [("superset_of", .arr [.str "authorization_code", .str "refresh_token"]), ("essential", .bool true)])]), .obj [("grant_types", .arr [.str "authorization_code", .str "refresh_token"])], .obj [("grant_types", .arr [.str "authorization_code", .str "refresh_token"])], false⟩,
  ⟨1977, .obj [("grant_types", .obj [("superset_of", .arr [])])], .obj [("grant_types", .obj [("superset_of", .arr [.str "authorization_code", .str "refresh_token"])])], some (.obj [("grant_types", .obj [("superset_of", .arr [.str "authorization_code", .str "refresh_token"])])]), .obj [("grant_types", .arr [.str "authorization_code", .str "refresh_token"])], .obj [("grant_types", .arr [.str "authorization_code", .str "refresh_token"])], false⟩,
  ⟨1978, .obj [("grant_types", .obj [("superset_of", .arr []), ("essential", .bool true)])], .obj [("grant_types", .obj [("superset_of", .arr [.str "authorization_code", .str "refresh_token"]), ("essential", .bool true)])], some (.obj [("grant_types", .obj [("superset_of", .arr [.str "authorization_code", .str "refresh_token"]), ("essential", .bool true)])]), .obj [("grant_types", .arr [.str "authorization_code", .str "password"])], .obj [], true⟩,
  ⟨1979, .obj [("grant_types", .obj [("superset_of", .arr []), ("essential", .bool true)])], .obj [("grant_types", .obj [("superset_of", .arr [.str "authorization_code", .str "refresh_token"])])], some (.obj [("grant_types", .obj [("superset_of", .arr [.str "authorization_code", .str "refresh_token"]), ("essential", .bool true)])]), .obj [("grant_types", .arr [.str "authorization_code", .str "password"])], .obj [], true⟩,
  ⟨1980, .obj [("grant_types", .obj [("superset_of", .arr [])])], .obj [("grant_types", .obj [("superset_of", .arr [.str "authorization_code", .str "refresh_token"]), ("essential", .bool true)])], some (.obj [("grant_types", .obj [("superset_of", .arr [.str "authorization_code", .str "refresh_token"]), ("essential", .bool true)])]), .obj [("grant_types", .arr [.str "authorization_code", .str "password"])], .obj [], true⟩,
  ⟨1981, .obj [("grant_types", .obj [("superset_of", .arr [])])], .obj [("grant_types", .obj [("superset_of", .arr [.str "authorization_code", .str "refresh_token"])])], some (.obj [("grant_types", .obj [("superset_of", .arr [.str "authorization_code", .str "refresh_token"])])]), .obj [("grant_types", .arr [.str "authorization_code", .str "password"])], .obj [], true⟩,
  ⟨1982, .obj [("grant_types", .obj [("superset_of", .arr []), ("essential", .bool true)])], .obj [("grant_types", .obj [("superset_of", .arr [.str "authorization_code", .str "refresh_token"]), ("essential", .bool true)])], some (.obj [("grant_types", .obj [("superset_of", .arr [.str "authorization_code", .str "refresh_token"]), ("essential", .bool true)])]), .obj [("grant_types", .arr [])], .obj [], true⟩,
  ⟨1983, .obj [("grant_types", .obj [("superset_of", .arr []), ("essential", .bool true)])], .obj [("grant_types", .obj [("superset_of", .arr [.str "authorization_code", .str "refresh_token"])])], some (.obj [("grant_types", .obj [("superset_of", .arr [.str "authorization_code", .str "refresh_token"]), ("essential", .bool true)])]), .obj [("grant_types", .arr [])], .obj [], true⟩,
  ⟨1984, .obj [("grant_types", .obj [("superset_of", .arr [])])], .obj [("grant_types", .obj [("superset_of", .arr [.str "authorization_code", .str "refresh_token"]), ("essential", .bool true)])], some (.obj [("grant_types", .obj [("superset_of", .arr [.str "authorization_code", .str "refresh_token"]), ("essential", .bool true)])]), .obj [("grant_types", .arr [])], .obj [], true⟩,
  ⟨1985, .obj [("grant_types", .obj [("superset_of", .arr [])])], .obj [("grant_types", .obj [("superset_of", .arr [.str "authorization_code", .str "refresh_token"])])], some (.obj [("grant_types", .obj [("superset_of", .arr [.str "authorization_code", .str "refresh_token"])])]), .obj [("grant_types", .arr [])], .obj [], true⟩,
  ⟨1986, .obj [("grant_types", .obj [("superset_of", .arr []), ("essential", .bool true)])], .obj [("grant_types", .obj [("superset_of", .arr [.str "authorization_code", .str "refresh_token"]), ("essential", .bool true)])], some (.obj [("grant_types", .obj [("superset_of", .arr [.str "authorization_code", .str "refresh_token"]), ("essential", .bool true)])]), .obj [], .obj [], true⟩,
  ⟨1987, .obj [("grant_types", .obj [("superset_of", .arr []), ("essential", .bool true)])], .obj [("grant_types", .obj [("superset_of", .arr [.str "authorization_code", .str "refresh_token"])])], some (.obj [("grant_types", .obj [("superset_of", .arr [.str "authorization_code", .str "refresh_token"]), ("essential", .bool true)])]), .obj [], .obj [], true⟩,
  ⟨1988, .obj [("grant_types", .obj [("superset_of", .arr [])])], .obj [("grant_types", .obj [("superset_of", .arr [.str "authorization_code", .str "refresh_token"]), ("essential", .bool true)])], some (.obj [("grant_types", .obj [("superset_of", .arr [.str "authorization_code", .str "refresh_token"]), ("essential", .bool true)])]), .obj [], .obj [], true⟩,
  ⟨1989, .obj [("grant_types", .obj [("superset_of", .arr [])])], .obj [("grant_types", .obj [("superset_of", .arr [.str "authorization_code", .str "refresh_token"])])], some (.obj [("grant_types", .obj [("superset_of", .arr [.str "authorization_code", .str "refresh_token"])])]), .obj [], .obj [], false⟩,
  ⟨1990, .obj [("grant_types", .obj [("superset_of", .arr [.str "authorization_code"]), ("essential", .bool true)])], .obj [("grant_types", .obj [("superset_of", .arr [.str "authorization_code", .str "refresh_token"]), ("essential", .bool true)])], some (.obj [("grant_types", .obj [("superset_of", .arr [.str "authorization_code", .str "refresh_token"]), ("essential", .bool true)])]), .obj [("grant_types", .arr [.str "authorization_code"])], .obj [], true⟩,
  ⟨1991, .obj [("grant_types", .obj [("superset_of", .arr [.str "authorization_code"]), ("essential", .bool true)])], .obj [("grant_types", .obj [("superset_of", .arr [.str "authorization_code", .str "refresh_token"])])], some (.obj [("grant_types", .obj [("superset_of", .arr [.str "authorization_code", .str "refresh_token"]), ("essential", .bool true)])]), .obj [("grant_types", .arr [.str "authorization_code"])], .obj [], true⟩,
  ⟨1992, .obj [("grant_types", .obj [("superset_of", .arr [.str "authorization_code"])])], .obj [("grant_types", .obj [("superset_of", .arr [.str "authorization_code", .str "refresh_token"]), ("essential", .bool true)])], some (.obj [("grant_types", .obj [("superset_of", .arr [.str "authorization_code", .str "refresh_token"]), ("essential", .bool true)])]), .obj [("grant_types", .arr [.str "authorization_code"])], .obj [], true⟩,
  ⟨1993, .obj [("grant_types", .obj [("superset_of", .arr [.str "authorization_code"])])], .obj [("grant_types", .obj [("superset_of", .arr [.str "authorization_code", .str "refresh_token"])])], some (.obj [("grant_types", .obj [("superset_of", .arr [.str "authorization_code", .str "refresh_token"])])]), .obj [("grant_types", .arr [.str "authorization_code"])], .obj [], true⟩,
  ⟨1994, .obj [("grant_types", .obj [("superset_of", .arr [.str "authorization_code"]), ("essential", .bool true)])], .obj [("grant_types", .obj [("superset_of", .arr [.str "authorization_code", .str "refresh_token"]), ("essential", .bool true)])], some (.obj [("grant_types", .obj [("superset_of", .arr [.str "authorization_code", .str "refresh_token"]), ("essential", .bool true)])]), .obj [("grant_types", .arr [.str "password"])], .obj [], true⟩,
  ⟨1995, .obj [("grant_types", .obj [("superset_of", .arr [.str "authorization_code"]), ("essential", .bool true)])], .obj [("grant_types", .obj [("superset_of", .arr [.str "authorization_code", .str "refresh_token"])])], some (.obj [("grant_types", .obj [("superset_of", .arr [.str "authorization_code", .str "refresh_token"]), ("essential", .bool true)])]), .obj [("grant_types", .arr [.str "password"])], .obj [], true⟩,
  ⟨1996, .obj [("grant_types", .obj [("superset_of", .arr [.str "authorization_code"])])], .obj [("grant_types", .obj [("superset_of", .arr [.str "authorization_code", .str "refresh_token"]), ("essential", .bool true)])], some (.obj [("grant_types", .obj [("superset_of", .arr [.str "authorization_code", .str "refresh_token"]), ("essential", .bool true)])]), .obj [("grant_types", .arr [.str "password"])], .obj [], true⟩,
  ⟨1997, .obj [("grant_types", .obj [("superset_of", .arr [.str "authorization_code"])])], .obj [("grant_types", .obj [("superset_of", .arr [.str "authorization_code", .str "refresh_token"])])], some (.obj [("grant_types", .obj [("superset_of", .arr [.str "authorization_code", .str "refresh_token"])])]), .obj [("grant_types", .arr [.str "password"])], .obj [], true⟩,
  ⟨1998, .obj [("grant_types", .obj [("superset_of", .arr [.str "authorization_code"]), ("essential", .bool true)])], .obj [("grant_types", .obj [("superset_of", .arr [.str "authorization_code", .str "refresh_token"]), ("essential", .bool true)])], some (.obj [("grant_types", .obj [("superset_of", .arr [.str "authorization_code", .str "refresh_token"]), ("essential", .bool true)])]), .obj [("grant_types", .arr [.str "authorization_code", .str "refresh_token"])], .obj [("grant_types", .arr [.str "authorization_code", .str "refresh_token"])], false⟩,
  ⟨1999, .obj [("grant_types", .obj [("superset_of", .arr [.str "authorization_code"]), ("essential", .bool true)])], .obj [("grant_types", .obj [("superset_of", .arr [.str "authorization_code", .str "refresh_token"])])], some (.obj [("grant_types", .obj [("superset_of", .arr [.str "authorization_code", .str "refresh_token"]), ("essential", .bool true)])]), .obj [("grant_types", .arr [.str "authorization_code", .str "refresh_token"])], .obj [("grant_types", .arr [.str "authorization_code", .str "refresh_token"])], false⟩,
  ⟨2000, .obj [("grant_types", .obj [("superset_of", .arr [.str "authorization_code"])])], .obj [("grant_types", .obj [("superset_of", .arr [.str "authorization_code", .str "refresh_token"]), ("essential", .bool true)])], some (.obj [("grant_types", .obj [("superset_of", .arr [.str "authorization_code", .str "refresh_token"]), ("essential", .bool true)])]), .obj [("grant_types", .arr [.str "authorization_code", .str "refresh_token"])], .obj [("grant_types", .arr [.str "authorization_code", .str "refresh_token"])], false⟩,
  ⟨2001, .obj [("grant_types", .obj [("superset_of", .arr [.str "authorization_code"])])], .obj [("grant_types", .obj [("superset_of", .arr [.str "authorization_code", .str "refresh_token"])])], some (.obj [("grant_types", .obj [("superset_of", .arr [.str "authorization_code", .str "refresh_token"])])]), .obj [("grant_types", .arr [.str "authorization_code", .str "refresh_token"])], .obj [("grant_types", .arr [.str "authorization_code", .str "refresh_token"])], false⟩,
  ⟨2002, .obj [("grant_types", .obj [("superset_of", .arr [.str "authorization_code"]), ("essential", .bool true)])], .obj [("grant_types", .obj [("superset_of", .arr [.str "authorization_code", .str "refresh_token"]), ("essential", .bool true)])], some (.obj [("grant_types", .obj [("superset_of", .arr [.str "authorization_code", .str "refresh_token"]), ("essential", .bool true)])]), .obj [("grant_types", .arr [.str "authorization_code", .str "password"])], .obj [], true⟩,
  ⟨2003, .obj [("grant_types", .obj [("superset_of", .arr [.str "authorization_code"]), ("essential", .bool true)])], .obj [("grant_types", .obj [("superset_of", .arr [.str "authorization_code", .str "refresh_token"])])], some (.obj [("grant_types", .obj [("superset_of", .arr [.str "authorization_code", .str "refresh_token"]), ("essential", .bool true)])]), .obj [("grant_types", .arr [.str "authorization_code", .str "password"])], .obj [], true⟩,
  ⟨2004, .obj [("grant_types", .obj [("superset_of", .arr [.str "authorization_code"])])], .obj [("grant_types", .obj [("superset_of", .arr [.str "authorization_code", .str "refresh_token"]), ("essential", .bool true)])], some (.obj [("grant_types", .obj [("superset_of", .arr [.str "authorization_code", .str "refresh_token"]), ("essential", .bool true)])]), .obj [("grant_types", .arr [.str "authorization_code", .str "password"])], .obj [], true⟩,
  ⟨2005, .obj [("grant_types", .obj [("superset_of", .arr [.str "authorization_code"])])], .obj [("grant_types", .obj [("superset_of", .arr [.str "authorization_code", .str "refresh_token"])])], some (.obj [("grant_types", .obj [("superset_of", .arr [.str "authorization_code", .str "refresh_token"])])]), .obj [("grant_types", .arr [.str "authorization_code", .str "password"])], .obj [], true⟩,
  ⟨2006, .obj [("grant_types", .obj [("superset_of", .arr [.str "authorization_code"]), ("essential", .bool true)])], .obj [("grant_types", .obj [("superset_of", .arr [.str "authorization_code", .str "refresh_token"]), ("essential", .bool true)])], some (.obj [("grant_types", .obj [("superset_of", .arr [.str "authorization_code", .str "refresh_token"]), ("essential", .bool true)])]), .obj [("grant_types", .arr [])], .obj [], true⟩,
  ⟨2007, .obj [("grant_types", .obj [("superset_of", .arr [.str "authorization_code"]), ("essential", .bool true)])], .obj [("grant_types", .obj [("superset_of", .arr [.str "authorization_code", .str "refresh_token"])])], some (.obj [("grant_types", .obj [("superset_of", .arr [.str "authorization_code", .str "refresh_token"]), ("essential", .bool true)])]), .obj [("grant_types", .arr [])], .obj [], true⟩,
  ⟨2008, .obj [("grant_types", .obj [("superset_of", .arr [.str "authorization_code"])])], .obj [("grant_types", .obj [("superset_of", .arr [.str "authorization_code", .str "refresh_token"]), ("essential", .bool true)])], some (.obj [("grant_types", .obj [("superset_of", .arr [.str "authorization_code", .str "refresh_token"]), ("essential", .bool true)])]), .obj [("grant_types", .arr [])], .obj [], true⟩,
  ⟨2009, .obj [("grant_types", .obj [("superset_of", .arr [.str "authorization_code"])])], .obj [("grant_types", .obj [("superset_of", .arr [.str "authorization_code", .str "refresh_token"])])], some (.obj [("grant_types", .obj [("superset_of", .arr [.str "authorization_code", .str "refresh_token"])])]), .obj [("grant_types", .arr [])], .obj [], true⟩,
  ⟨2010, .obj [("grant_types", .obj [("superset_of", .arr [.str "authorization_code"]), ("essential", .bool true)])], .obj [("grant_types", .obj [("superset_of", .arr [.str "authorization_code", .str "refresh_token"]), ("essential", .bool true)])], some (.obj [("grant_types", .obj [("superset_of", .arr [.str "authorization_code", .str "refresh_token"]), ("essential", .bool true)])]), .obj [], .obj [], true⟩,
  ⟨2011, .obj [("grant_types", .obj [("superset_of", .arr [.str "authorization_code"]), ("essential", .bool true)])], .obj [("grant_types", .obj [("superset_of", .arr [.str "authorization_code", .str "refresh_token"])])], some (.obj [("grant_types", .obj [("superset_of", .arr [.str "authorization_code", .str "refresh_token"]), ("essential", .bool true)])]), .obj [], .obj [], true⟩,
  ⟨2012, .obj [("grant_types", .obj [("superset_of", .arr [.str "authorization_code"])])], .obj [("grant_types", .obj [("superset_of", .arr [.str "authorization_code", .str "refresh_token"]), ("essential", .bool true)])], some (.obj [("grant_types", .obj [("superset_of", .arr [.str "authorization_code", .str "refresh_token"]), ("essential", .bool true)])]), .obj [], .obj [], true⟩,
  ⟨2013, .obj [("grant_types", .obj [("superset_of", .arr [.str "authorization_code"])])], .obj [("grant_types", .obj [("superset_of", .arr [.str "authorization_code", .str "refresh_token"])])], some (.obj [("grant_types", .obj [("superset_of", .arr [.str "authorization_code", .str "refresh_token"])])]), .obj [], .obj [], false⟩,
  ⟨2014, .obj [("logo_uri", .obj [("value", .null)])], .obj [("logo_uri", .obj [("essential", .bool true)])], none, .obj [("logo_uri", .str "https://example.com/logo.png")], .obj [], true⟩,
  ⟨2015, .obj [("logo_uri", .obj [("value", .null)])], .obj [("logo_uri", .obj [("essential", .bool true)])], none, .obj [("logo_uri", .str "https://images.example.com/logo.jpg")], .obj [], true⟩,
  ⟨2016, .obj [("logo_uri", .obj [("value", .null)])], .obj [("logo_uri", .obj [("essential", .bool true)])], none, .obj [], .obj [], true⟩,
  ⟨2017, .obj [("logo_uri", .obj [("value", .null)])], .obj [("logo_uri", .obj [("essential", .bool false)])], some (.obj [("logo_uri", .obj [("value", .null), ("essential", .bool false)])]), .obj [("logo_uri", .str "https://example.com/logo.png")], .obj [], false⟩,
  ⟨2018, .obj [("logo_uri", .obj [("value", .null)])], .obj [("logo_uri", .obj [("essential", .bool false)])], some (.obj [("logo_uri", .obj [("value", .null), ("essential", .bool false)])]), .obj [("logo_uri", .str "https://images.example.com/logo.jpg")], .obj [], false⟩,
  ⟨2019, .obj [("logo_uri", .obj [("value", .null)])], .obj [("logo_uri", .obj [("essential", .bool false)])], some (.obj [("logo_uri", .obj [("value", .null), ("essential", .bool false)])]), .obj [], .obj [], false⟩]

set_option maxRecDepth 100000 in
example : vectors3.all (fun v => v.applyMerged && v.mergeAndApply) = true := by decide +kernel

end Oidfed.Validation
