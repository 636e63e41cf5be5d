import Verif.Model.StmtJSON
import Verif.Model.Fetch
/-!
# Resolve responses as JSON (`trustresolver.go:40-139`, `metadata_resolver.go`)

The response with its Go values, how it is written and signed by a resolver, and how it is read by a remote metadata resolver. Simplifications as in
Model/StmtJSON.
-/

namespace Oidfed

/-- `jwx.ParsedJWT` (internal/jwx/jws.go:18-21): the text and what was parsed from it. -/
structure PJwt where
  raw : String
  msg : Jws

/-- `jwx.Parse` (internal/jwx/jws.go:41-48); `P` is `jws.Parse`. -/
def parseJwt (P : String → Option Jws) (s : String) : Option PJwt := (P s).map (fun j => ⟨s, j⟩)

/-- `ResolveResponsePayload` (trustresolver.go:81-86). An element `none` of the chain is a nil pointer. -/
structure RRPayload where
  metadata : Option JMetadata
  marks : Option (List MarkInfo)
  chain : Option (List (Option PJwt))
  extra : AMap JV

/-- `ResolveResponse` (trustresolver.go:41-48). -/
structure RResp where
  iss : String
  sub : String
  iat : Time
  exp : Time
  aud : String
  payload : RRPayload

/-! ## Writing -/

/-- The texts of the messages (trustresolver.go:118-121); a nil pointer panics. -/
def rawJwts : List (Option PJwt) → Res (List String)
  | [] => .ok []
  | none :: _ => .error .panic
  | some m :: l =>
    match rawJwts l with
    | .error f => .error f
    | .ok r => .ok (m.raw :: r)

/-- A list with `omitempty`, of which the elements are written with `g`. -/
def omitList {α : Type} (g : α → JV) : Option (List α) → Option JV
  | none => none
  | some l => if l.isEmpty then none else some (.arr (l.map g))

/-- The fields of `ResolveResponsePayload` as `encoding/json` writes them, given the texts of the messages (trustresolver.go:81-97, 117-123). -/
def RRPayload.fields (p : RRPayload) (raws : List String) (t : String) : Option JV :=
  if t = "metadata" then p.metadata.map metadataJV
  else if t = "trust_marks" then omitList markInfoJV p.marks
  else if t = "trust_chain" then omitStrs (some raws)
  else none

/-- `ResolveResponse.MarshalJSON` (trustresolver.go:52-78). -/
def RResp.write (r : RResp) : Res JObj :=
  match rawJwts (r.payload.chain.getD []) with
  | .error f => .error f
  | .ok raws =>
    match ResolveResp.marshal ⟨r.iss, r.sub, marshalTime r.iat, marshalTime r.exp, r.aud, ⟨r.payload.fields raws, r.payload.extra⟩⟩ with
    | none => .error .error
    | some l => .ok l

/-- `ResolveResponseSigner.JWT` of a response (jwtsigning.go:36-48, 120-123). -/
def signResponse (C : Crypto) (S : JSigner) (r : RResp) : Res Jws :=
  match S.key with
  | none => .error .error
  | some _ =>
    match r.write with
    | .error f => .error f
    | .ok p => signAs C S .resolveResponse (some p)

/-! ## Reading -/

/-- Parsing the messages one after the other. -/
def parseJwts (P : String → Option Jws) : List String → Option (List PJwt)
  | [] => some []
  | s :: l =>
    match parseJwt P s, parseJwts P l with
    | some m, some r => some (m :: r)
    | _, _ => none

/-- The texts in a decoded `trust_chain`. -/
def chainTexts : Option JV → List String
  | some (.arr l) => (decStrings l).getD []
  | _ => []

/-- `JWSMessages.UnmarshalJSON` (trustresolver.go:126-139): the messages are appended to those already there. -/
def chainDec (P : String → Option Jws) (cur : Option JV) : JV → Option (Option JV)
  | .null => some cur
  | .arr l =>
    match decStrings l with
    | none => none
    | some ss => if (parseJwts P ss).isSome then some (some (.arr ((chainTexts cur ++ ss).map .str))) else none
  | _ => none

/-- Decoding of the fields of `ResolveResponsePayload` (trustresolver.go:81-86). -/
def respDec (P : String → Option Jws) (opq : Opaque) : FieldDec := fun t cur v =>
  if t = "metadata" then keepInto (joinKnown (EType.all.map EType.tag)) (fun v => (decMetadata opq v).isSome) cur v
  else if t = "trust_marks" then keepIf (fun v => (decInfos v).isSome) v
  else chainDec P cur v

/-- The decoded fields (trustresolver.go:101-111). -/
def RRPayload.ofStruct (P : String → Option Jws) (opq : Opaque) (o : JStruct) : RRPayload where
  metadata := (o.known "metadata").bind (decMetadata opq)
  marks := (o.known "trust_marks").bind decInfos
  chain := (o.known "trust_chain").bind (fun v => (parseJwts P (chainTexts (some v))).map (fun l => l.map some))
  extra := o.extra

/-- `ParseResolveResponse` (metadata_resolver.go:184-197); the claims outside of the payload are not filled in (see `ResolveResp.unmarshal`). -/
def readResponse (P : String → Option Jws) (opq : Opaque) (body : String) : Option RRPayload :=
  match P body with
  | none => none
  | some j =>
    if verifyType j "resolve-response+jwt" then (ResolveResp.unmarshal (respDec P opq) j.payload).map (fun r => RRPayload.ofStruct P opq r.payload) else none

/-! ## What the other models see -/

/-- The payload as Model/MetaResolver has it. -/
def RRPayload.toPayload (N : Numbering) (num : Jws → Nat) (p : RRPayload) : Payload where
  metadata := p.metadata.map (JMetadata.toMetadata N)
  marks := (p.marks.getD []).map (fun i => ⟨i.type, i.jwt, i.extra, none⟩)
  chain := (p.chain.getD []).map (fun m => m.map (fun x => num x.msg))

/-- `SimpleRemoteMetadataResolver.ResolveResponse` up to parsing (metadata_resolver.go:118-137; internal/http/http.go:46-56). -/
def resolveAnswer (P : String → Option Jws) (opq : Opaque) (N : Numbering) (num : Jws → Nat) : Option Answer → HttpAnswer
  | none => .failed
  | some a =>
    if 400 ≤ a.status ∧ a.err ≠ "" then .errorCode a.err
    else .body ((readResponse P opq a.body).map (RRPayload.toPayload N num))

end Oidfed
