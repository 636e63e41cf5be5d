import Verif.Model.ResolveAPI
/-!
# What clients should make of error responses
-/

namespace Oidfed.Spec
open Oidfed

/-- The codes of OpenID Federation for which there are constructors. -/
def errorCodes : List String :=
  ["invalid_request", "invalid_client", "invalid_issuer", "invalid_subject", "invalid_trust_anchor", "invalid_trust_chain", "invalid_metadata",
   "not_found", "server_error", "unsupported_parameter", "temporarily_unavailable"]

/-- What `ResolvePossible` should say for an error code: a chain exists although the metadata is invalid; there is no valid chain; everything else decides nothing. -/
def Verdict (code : String) (valid invalid : Bool) : Prop :=
  (valid = true ↔ code = "invalid_metadata") ∧ (invalid = true ↔ code = "invalid_trust_chain")

end Oidfed.Spec
