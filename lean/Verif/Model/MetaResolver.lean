import Verif.Model.TrustMark
import Verif.Model.Resolver
import Verif.Model.ChainFilter
/-!
# Metadata resolvers (`metadata_resolver.go`) and the keys of trust mark issuers (`trustmark.go`)

Resolving an entity verifies the trust marks of the entity, which resolves their issuers, possibly with a resolver that again verifies
trust marks. A *call position* is the list of indices of trust marks that leads to a nested resolution; everything obtained from outside may
depend on it, so that answers may change from call to call. Caching of trust chains and metadata is not part of this model.

A result `none` is a computation that is not finished within the given fuel.
-/

namespace Oidfed

/-- `apimodel.ResolveRequest` (apimodel/resolve.go:16-20). -/
structure Req where
  subject : ID
  anchors : List ID
  types : List String

/-- `ResolveResponsePayload` (trustresolver.go:81-86) without `Extra`; of the trust chain messages the number of the message, or none for a nil
pointer. -/
structure Payload where
  metadata : Option Metadata
  marks : List Info
  chain : List (Option Nat)

/-- The answer of a resolve endpoint as seen by `http.Get` and `ParseResolveResponse` (metadata_resolver.go:118-137): a transport error, an error
response with its code, or a body, which is a response or cannot be parsed. -/
inductive HttpAnswer where
  | failed
  | errorCode (code : String)
  | body (response : Option Payload)

/-- Nested call positions. -/
abbrev CallPos := List Nat

/-- The trust mark claims of an entity statement (entitystatement.go:81-83). -/
structure MarkClaims where
  marks : List Info
  issuers : Option (AMap (List ID))
  owners : AMap Owner

/-- The outside world for metadata resolution. -/
structure Env where
  /-- what trust chain resolution at a call position sees -/
  world : CallPos → World
  /-- bound on the depth of a trust chain resolution -/
  depth : Nat
  /-- the swaps made by `sort.Slice` on more than 12 chains -/
  swaps : CallPos → List (Nat × Nat)
  /-- `GetEntityConfiguration` of the `n`-th anchor (metadata_resolver.go:219, 247) -/
  anchorEC : CallPos → Nat → ID → Option Stmt
  /-- `GetEntityConfiguration` of a trust mark issuer (trustmark.go:246) -/
  issuerEC : CallPos → ID → Option Stmt
  /-- a request to the resolve endpoint for the `n`-th anchor -/
  http : CallPos → Nat → String → Req → HttpAnswer
  /-- clock readings for the `n`-th trust mark and its delegation -/
  now : CallPos → Nat → Time × Time
  /-- the trust mark claims of a statement -/
  claims : Stmt → MarkClaims
  /-- parsing of JWTs -/
  reader : JWTReader
  /-- `ParseEntityStatement` (entitystatement.go:245-261) of a message -/
  parse : Nat → Option Stmt
  sig : SigOracle

/-- `chains.SortAsc(TrustChainScoringPathLen)` (metadata_resolver.go:57, trustchainfilter.go:22-34). -/
def sortedByPathLen (swaps : List (Nat × Nat)) (cs : List Chain) : List Chain :=
  if cs.length ≤ 12 then sortAsc (fun c => (pathLen c : Int)) cs else runSwaps swaps cs

/-- The loop over the chains (metadata_resolver.go:58-67). -/
def firstWithMetadata : List Chain → Res (Chain × Option Metadata)
  | [] => .error .error
  | c :: cs =>
    match chainMetadata c with
    | .ok m => .ok (c, m)
    | .error .panic => .error .panic
    | .error .error => firstWithMetadata cs

/-- The resolver built from a request (metadata_resolver.go:47-51, 85-89): anchors without keys (trustanchor.go:25-30). -/
def Req.resolver (q : Req) : Resolver := ⟨q.anchors.map (fun a => ⟨a, none⟩), q.subject, q.types⟩

/-- `LocalMetadataResolver.resolveResponsePayloadWithoutTrustMarks` (metadata_resolver.go:42-68). -/
def localChain (E : Env) (p : CallPos) (q : Req) : Option (Res (Chain × Option Metadata)) :=
  match q.resolver.validChains (E.world p) E.depth with
  | .error f => some (.error f)
  | .ok none => none
  | .ok (some cs) =>
    if cs.isEmpty then some (.error .error)
    else some (firstWithMetadata (sortedByPathLen (E.swaps p) cs))

/-- The payload without trust marks (metadata_resolver.go:61-62, trustchain.go:107-112). -/
def plainPayload (cm : Chain × Option Metadata) : Payload := ⟨cm.2, [], cm.1.map Stmt.raw⟩

/-- `SimpleRemoteMetadataResolver.ResolveResponsePayload` (metadata_resolver.go:110-138, 153-164) given the answer. -/
def simplePayload : HttpAnswer → Res Payload
  | .failed => .error .error
  | .errorCode _ => .error .error
  | .body none => .error .error
  | .body (some r) => .ok r

/-- The status and error of `SimpleRemoteMetadataResolver.ResolveResponse` (metadata_resolver.go:110-138) turned into the two answers of
`ResolvePossible` (metadata_resolver.go:167-181): confirmed valid, confirmed invalid. -/
def simplePossible : HttpAnswer → Bool × Bool
  | .failed => (false, true)
  | .errorCode c =>
    if c = "invalid_subject" ∨ c = "invalid_trust_anchor" then (false, false)
    else if c = "invalid_trust_chain" then (false, true)
    else if c = "invalid_metadata" then (true, false)
    else (false, false)
  | .body none => (false, true)
  | .body (some _) => (true, false)

/-- `ParseResolveResponse` (metadata_resolver.go:184-197) on the body of the answer to a request (`SimpleRemoteMetadataResolver.ResolveResponse`,
metadata_resolver.go:135-136). The request is not used. -/
def parseResolveResponse (R : JWTReader) (dec : FieldDec) (_ : Req) (body : String) : Option ResolveResp :=
  match R body with
  | none => none
  | some j => if j.typ ≠ "resolve-response+jwt" then none else ResolveResp.unmarshal dec j.payload

/-- The resolve endpoint of an anchor, `""` if there is none (metadata_resolver.go:224-227, 252-255). -/
def Stmt.resolveEndpoint (s : Stmt) : String :=
  match s.metadata with
  | none => ""
  | some m => match m.known .fed with
    | none => ""
    | some f => f.str "federation_resolve_endpoint"

/-- The checks on the statement found for a trust mark issuer (trustmark.go:248-257). `tmi.JWKS.Len()` on a nil set panics. -/
def issuerStmtKeys : Option Stmt → Res Keys
  | none => .error .error
  | some s =>
    match s.jwks with
    | none => .error .panic
    | some [] => .error .error
    | some ks => .ok (some ks)

/-- `getTrustMarkIssuerJWKS` (trustmark.go:218-258); `resolve` is the default resolver. -/
def issuerKeys (E : Env) (p : CallPos) (resolve : Req → Option (Res Payload)) (ta : MarkAnchor) (iss : ID) : Option (Res Keys) :=
  if iss = ta.sub then some (.ok ta.jwks)
  else match resolve ⟨iss, [ta.sub], []⟩ with
    | none => none
    | some (.error f) => some (.error f)
    | some (.ok r) =>
      match r.chain with
      | [] => some (issuerStmtKeys (E.issuerEC p iss))
      | none :: _ => some (.error .panic)
      | some n :: _ => some (issuerStmtKeys (E.parse n))

/-- The payload of a statement as far as trust marks are concerned. -/
def Env.anchorOf (E : Env) (s : Stmt) : MarkAnchor := ⟨s.sub, s.jwks, (E.claims s).issuers, (E.claims s).owners⟩

/-- `LocalMetadataResolver.ResolveResponsePayload` (metadata_resolver.go:71-81); `rec` is the default resolver at nested positions.
The chain is not empty. -/
def localPayload (E : Env) (rec : CallPos → Req → Option (Res Payload)) (p : CallPos) (q : Req) : Option (Res Payload) :=
  match localChain E p q with
  | none => none
  | some (.error f) => some (.error f)
  | some (.ok (c, m)) =>
    match c.head?, c.getLast? with
    | some leaf, some top =>
      let ta := E.anchorOf top
      match verifiedFederation E.reader E.sig (E.now p) (fun n iss => issuerKeys E (p ++ [n]) (rec (p ++ [n])) ta iss) ta 0
          (E.claims leaf).marks with
      | none => none
      | some (.error f) => some (.error f)
      | some (.ok marks) => some (.ok ⟨m, marks, c.map Stmt.raw⟩)
    | _, _ => some (.error .panic)

/-- The loop of `SmartRemoteMetadataResolver.ResolveResponsePayload` over the anchors (metadata_resolver.go:218-240) from the `n`-th on:
the first positive answer. -/
def smartRemote (E : Env) (p : CallPos) (q : Req) : Nat → List ID → Option Payload
  | _, [] => none
  | n, a :: as =>
    match E.anchorEC p n a with
    | none => smartRemote E p q (n+1) as
    | some ec =>
      if ec.resolveEndpoint = "" then smartRemote E p q (n+1) as
      else match simplePayload (E.http p n ec.resolveEndpoint q) with
        | .ok r => some r
        | .error _ => smartRemote E p q (n+1) as

/-- `SmartRemoteMetadataResolver.ResolveResponsePayload` (metadata_resolver.go:215-242). -/
def smartPayload (E : Env) (rec : CallPos → Req → Option (Res Payload)) (p : CallPos) (q : Req) : Option (Res Payload) :=
  match smartRemote E p q 0 q.anchors with
  | some r => some (.ok r)
  | none => localPayload E rec p q

/-- The possible values of `DefaultMetadataResolver` (metadata_resolver.go:26): the three of the library or one of the user's. -/
inductive Default where
  | loc
  | smart
  | simple (endpoint : String)
  | user (f : CallPos → Req → Res Payload)

/-- The default resolver as used by `getTrustMarkIssuerJWKS` (trustmark.go:231-237); the number bounds the nesting. -/
def Default.resolve (D : Default) (E : Env) : Nat → CallPos → Req → Option (Res Payload)
  | 0, _, _ => none
  | fuel+1, p, q =>
    match D with
    | .loc =>
      match localChain E p q with
      | none => none
      | some (.error f) => some (.error f)
      | some (.ok cm) => some (.ok (plainPayload cm))
    | .smart => smartPayload E (Default.resolve D E fuel) p q
    | .simple ep => some (simplePayload (E.http p 0 ep q))
    | .user f => some (f p q)

/-- `LocalMetadataResolver.ResolvePossible` (metadata_resolver.go:84-93). -/
def localPossible (E : Env) (p : CallPos) (q : Req) : Option (Res (Bool × Bool)) :=
  match q.resolver.validChains (E.world p) E.depth with
  | .error f => some (.error f)
  | .ok none => none
  | .ok (some cs) => some (.ok (!cs.isEmpty, cs.isEmpty))

/-- The loop of `SmartRemoteMetadataResolver.ResolvePossible` (metadata_resolver.go:246-269) from the `n`-th anchor on. -/
def smartPossibleRemote (E : Env) (p : CallPos) (q : Req) : Nat → List ID → Option (Bool × Bool)
  | _, [] => none
  | n, a :: as =>
    match E.anchorEC p n a with
    | none => smartPossibleRemote E p q (n+1) as
    | some ec =>
      if ec.resolveEndpoint = "" then smartPossibleRemote E p q (n+1) as
      else
        match simplePossible (E.http p n ec.resolveEndpoint q) with
        | (true, _) => some (true, false)
        | (false, true) => some (false, true)
        | (false, false) => smartPossibleRemote E p q (n+1) as

/-- `SmartRemoteMetadataResolver.ResolvePossible` (metadata_resolver.go:245-271). -/
def smartPossible (E : Env) (p : CallPos) (q : Req) : Option (Res (Bool × Bool)) :=
  match smartPossibleRemote E p q 0 q.anchors with
  | some b => some (.ok b)
  | none => localPossible E p q

end Oidfed
