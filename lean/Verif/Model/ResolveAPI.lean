import Verif.Model.ResolveJSON
import Verif.Model.MetaResolver
/-!
# The `Resolve` methods of the metadata resolvers, and error responses (`metadata_resolver.go`, `error.go`, `internal/http/http.go`)
-/

namespace Oidfed

/-! ## Resolving metadata only -/

/-- `LocalMetadataResolver.Resolve` (metadata_resolver.go:34-40): trust marks are not looked at. `none` inside `ok` is a nil `*Metadata`. -/
def localResolve (E : Env) (p : CallPos) (q : Req) : Option (Res (Option Metadata)) :=
  match localChain E p q with
  | none => none
  | some (.error f) => some (.error f)
  | some (.ok cm) => some (.ok cm.2)

/-- `SimpleRemoteMetadataResolver.Resolve` (metadata_resolver.go:141-150) given the answer. -/
def simpleResolve : HttpAnswer → Res (Option Metadata)
  | .failed => .error .error
  | .errorCode _ => .error .error
  | .body none => .error .error
  | .body (some r) => .ok r.metadata

/-- `SmartRemoteMetadataResolver.Resolve` (metadata_resolver.go:206-212). -/
def smartResolve (E : Env) (rec : CallPos → Req → Option (Res Payload)) (p : CallPos) (q : Req) : Option (Res (Option Metadata)) :=
  match smartPayload E rec p q with
  | none => none
  | some (.error f) => some (.error f)
  | some (.ok r) => some (.ok r.metadata)

/-! ## Error responses -/

/-- `Error` (error.go:4-7). -/
structure ErrorResp where
  code : String
  description : String

/-- The constructors `ErrorInvalidRequest` to `ErrorTemporarilyUnavailable` (error.go:10-22, 25-110): each takes a description. -/
def errorConstructors : List (String → ErrorResp) :=
  [fun d => ⟨"invalid_request", d⟩, fun d => ⟨"invalid_client", d⟩, fun d => ⟨"invalid_issuer", d⟩, fun d => ⟨"invalid_subject", d⟩,
   fun d => ⟨"invalid_trust_anchor", d⟩, fun d => ⟨"invalid_trust_chain", d⟩, fun d => ⟨"invalid_metadata", d⟩, fun d => ⟨"not_found", d⟩,
   fun d => ⟨"server_error", d⟩, fun d => ⟨"unsupported_parameter", d⟩, fun d => ⟨"temporarily_unavailable", d⟩]

/-- `Error` in JSON; no field has `omitempty` (error.go:4-7). -/
def ErrorResp.write (e : ErrorResp) : JObj := [("error", .str e.code), ("error_description", .str e.description)]

/-- Names of the fields of `HttpError` in JSON; `Status` has no tag (internal/http/http.go:24-28). -/
def httpErrorTags : List String := ["error", "error_description", "Status"]

/-- Decoding of the fields of `HttpError`. -/
def httpErrorDec : FieldDec := fun t cur v =>
  if t = "Status" then
    match v with
    | .null => some cur
    | v => if (decInt v).isSome then some (some v) else none
  else decString cur v

/-- `HttpError` (internal/http/http.go:24-28). -/
structure HttpError where
  code : String
  description : String
  status : Nat

/-- An HTTP answer: status, text of the body, and the body as JSON if the content type is a JSON one; the inner `none` is a body that is not JSON. -/
structure RawAnswer where
  status : Nat
  text : String
  json : Option (Option JV)

/-- What `http.Get` and `http.Post` return (internal/http/http.go:46-69): an error, an error response, or the response. -/
inductive GetResult where
  | failed
  | errorResponse (e : HttpError)
  | response (a : RawAnswer)

/-- The error object resty fills in for a status above 399 (internal/http/http.go:47, 60): outer `none` if the body cannot be decoded; null and bodies of another
content type leave the zero value. Whatever status the body states is replaced by that of the answer (internal/http/http.go:52, 65). -/
def readHttpError (a : RawAnswer) : Option HttpError :=
  match a.json with
  | none => some ⟨"", "", a.status⟩
  | some (some (.obj l)) =>
    (decodeKnown httpErrorTags httpErrorDec l (fun _ => none)).map (fun f => ⟨strOf (f "error"), strOf (f "error_description"), a.status⟩)
  | some (some .null) => some ⟨"", "", a.status⟩
  | some _ => none

/-- `http.Get` and `http.Post` without a target for the result (internal/http/http.go:46-69); `none` is a failed request. -/
def httpGet : Option RawAnswer → GetResult
  | none => .failed
  | some a =>
    if 400 ≤ a.status then
      match readHttpError a with
      | none => .failed
      | some e => if e.code ≠ "" then .errorResponse e else .response a
    else .response a

/-- The answer as the other models have it (`Answer` in Model/Fetch); an answer resty cannot read is a failed request. -/
def RawAnswer.toAnswer (a : RawAnswer) : Option Answer :=
  match httpGet (some a) with
  | .failed => none
  | .errorResponse e => some ⟨a.status, e.code, a.text⟩
  | .response a => some ⟨a.status, "", a.text⟩

/-- An error answered by a server that writes the library's `Error` as JSON. -/
def ErrorResp.answer (e : ErrorResp) (status : Nat) (text : String) : RawAnswer := ⟨status, text, some (some (.obj e.write))⟩

end Oidfed
