import Verif.Model.ResolveJSON
import Verif.Spec.Publish
/-!
# What it means that a resolve response says the same
-/

namespace Oidfed.Spec

/-- The names of the claims a resolve response has besides its payload. -/
def responseClaims : List String := ["iss", "sub", "iat", "exp", "aud"]

/-- There is something in the payload. -/
def SaysSomething (p : RRPayload) : Prop := p.metadata ≠ none ∨ p.marks.getD [] ≠ [] ∨ p.chain.getD [] ≠ [] ∨ p.extra ≠ []

/-- A response a resolver can make: it says something, times are in the years 1823 to 2116, the trust chain consists of parsed JWTs, metadata has the types of the fields, and additional claims keep apart from the others. -/
structure ResponseOk (P : String → Option Jws) (opq : Opaque) (r : RResp) : Prop where
  something : SaysSomething r.payload
  iat : |r.iat| ≤ 2 ^ 62
  exp : |r.exp| ≤ 2 ^ 62
  chain : ∀ m ∈ r.payload.chain.getD [], ∃ x, m = some x ∧ P x.raw = some x.msg
  metadata : ∀ m, r.payload.metadata = some m → ExtraOk (EType.all.map EType.tag) m.extra ∧ ∀ t s, m.known t = some s → MetaOk opq t s
  marks : ∀ i ∈ r.payload.marks.getD [], ExtraOk infoTags i.extra
  extra : ExtraOk resolvePayloadTags r.payload.extra
  apart : ∀ k ∈ r.payload.extra.keys, k ∉ responseClaims

/-- What was read and what was written: the same metadata, trust marks and trust chain; the additional claims are the same, and the claims of the response
appear among them. -/
structure SameResponse (r : RResp) (q : RRPayload) : Prop where
  metadata : Option.Rel SameMetadata r.payload.metadata q.metadata
  marks : SameList SameInfo (r.payload.marks.getD []) (q.marks.getD [])
  chain : q.chain.getD [] = r.payload.chain.getD []
  extra : ∀ k, k ∉ responseClaims → AMap.get q.extra k = AMap.get r.payload.extra k
  iss : AMap.get q.extra "iss" = some (.str r.iss)
  sub : AMap.get q.extra "sub" = some (.str r.sub)
  iat : ∃ v, AMap.get q.extra "iat" = some v ∧ |timeOf (some v) - r.iat| < 2000
  exp : ∃ v, AMap.get q.extra "exp" = some v ∧ |timeOf (some v) - r.exp| < 2000
  aud : AMap.get q.extra "aud" = if r.aud = "" then none else some (.str r.aud)

/-- What the caller of a remote resolver gets: the metadata, the trust marks and the chain of the response. -/
structure ReadPayload (N : Numbering) (num : Jws → Nat) (p : RRPayload) (q : Payload) : Prop where
  metadata : Option.Rel (ReadMetadata N) p.metadata q.metadata
  marks : q.marks.map (fun i => (i.type, i.jwt)) = (p.marks.getD []).map (fun i => (i.type, i.jwt))
  parsed : ∀ i ∈ q.marks, i.cached = none
  chain : q.chain = (p.chain.getD []).map (fun m => m.map (fun x => num x.msg))

end Oidfed.Spec
