import Verif.Model.MetaResolver
/-!
# The authorization code flow (`authcode.go`)

Go maps are association lists. `json.Marshal` writes a map with sorted keys. Request values are JSON values, so marshalling them does not
fail; all other ways to fail are modelled. Signing is a `Signer`; these JWTs have no `typ` header, written `""` here.
-/

namespace Oidfed

/-- Assignment `m[k] = v` to a Go map. -/
def AMap.put {α : Type} (m : AMap α) (k : String) (v : α) : AMap α := (k, v) :: m.filter (fun kv => !(kv.1 == k))

/-- `delete(m, k)`. -/
def AMap.del {α : Type} (m : AMap α) (k : String) : AMap α := m.filter (fun kv => !(kv.1 == k))

/-- `RequestObjectProducer` (authcode.go:50-55) without key and algorithm. -/
structure ROProducer where
  entityID : ID
  lifetime : Int

/-- `RequestObject` (authcode.go:70-98) at `now` seconds since the epoch. `jti` is what the random generator gives (`none`: an error).
`values = none` is the nil map. Returns the JWT or an error, and the map the caller passed, as it is afterwards. -/
def ROProducer.requestObject (P : ROProducer) (sign : Signer) (now : Int) (jti : Option String) (values : Option (AMap JV)) :
    Option String × Option (AMap JV) :=
  match values with
  | none => (none, none)
  | some m =>
    if (m.get "aud").isNone then (none, some m)
    else
      let m1 := (((m.put "iss" (.str P.entityID)).put "client_id" (.str P.entityID)).del "sub").del "client_secret"
      match (match m1.get "jti" with
        | some _ => some m1
        | none => jti.map (fun j => m1.put "jti" (.str j))) with
      | none => (none, some m1)
      | some m2 =>
        let m3 := (m2.put "iat" (.num now)).put "exp" (.num (wrap64 (now + P.lifetime)))
        (sign "" (sortMembers m3), some m3)

/-- `ClientAssertion` (authcode.go:101-122). -/
def ROProducer.clientAssertion (P : ROProducer) (sign : Signer) (now : Int) (jti : Option String) (aud : String) : Option String :=
  match jti with
  | none => none
  | some j =>
    sign "" (sortMembers [("iss", .str P.entityID), ("sub", .str P.entityID), ("iat", .num now), ("exp", .num (wrap64 (now + P.lifetime))),
      ("aud", .str aud), ("jti", .str j)])

/-- The fields of `OpenIDProviderMetadata` that are used. -/
structure OPMeta where
  issuer : String
  authorizationEndpoint : String
  tokenEndpoint : String

/-- The fields read from resolved metadata. -/
def opMetaOf (m : EntityMeta) : OPMeta := ⟨m.str "issuer", m.str "authorization_endpoint", m.str "token_endpoint"⟩

/-- `ResolveOPMetadata` (federation.go:130-150). `cached` is what `cache.Get` gives: an error, something, or nothing; `resolved` is what the
default metadata resolver gives (`none`: a nil pointer without error, dereferenced at line 149). -/
def resolveOPMetadata (cached : Res (Option OPMeta)) (resolved : Res (Option Metadata)) : Res (Option OPMeta) :=
  match cached with
  | .error f => .error f
  | .ok (some op) => .ok (some op)
  | .ok none =>
    match resolved with
    | .error f => .error f
    | .ok none => .error .panic
    | .ok (some m) => .ok ((m.known .op).map opMetaOf)

/-- The request made by `ResolveOPMetadata` (federation.go:140-144). -/
def opRequest (issuer : ID) (anchors : List ID) : Req := ⟨issuer, anchors, ["openid_provider"]⟩

/-- `url.URL`: the query as names and values, and everything else. -/
structure URL where
  rest : String
  query : List (String × String)
deriving DecidableEq

/-- `url.Parse`; arbitrary in all theorems. -/
abbrev URLParser := String → Option URL

/-- The relevant fields of `FederationLeaf` (federation.go:20-39). -/
structure Leaf where
  entityID : ID
  rop : ROProducer

/-- `NewFederationLeaf` (federation.go:61-77) as far as these fields are concerned. -/
def newLeaf (entityID : ID) : Leaf := ⟨entityID, ⟨entityID, 60⟩⟩

/-- A value of an additional parameter in the request object (authcode.go:133-139). A nil slice would be written as null; it is not
distinguished from an empty one. -/
def paramValue : List String → JV
  | [s] => .str s
  | l => .arr (l.map .str)

/-- The additional parameters as request values (authcode.go:132-139). -/
def paramValues (add : AMap (List String)) : AMap JV := add.map (fun kv : String × List String => (kv.1, paramValue kv.2))

/-- The request parameters (authcode.go:140-144). -/
def requestParams (op : OPMeta) (redirectURI state scope : String) (add : AMap (List String)) : AMap JV :=
  (((((paramValues add).put "aud" (.str op.issuer)).put "redirect_uri" (.str redirectURI)).put "state"
    (.str state)).put "response_type" (.str "code")).put "scope" (.str scope)

/-- `GetAuthorizationURL` (authcode.go:125-162). `op` is the result of `ResolveOPMetadata` (`none`: a nil pointer without error). `q.Encode`
sorts by name. -/
def Leaf.authorizationURL (f : Leaf) (sign : Signer) (parse : URLParser) (now : Int) (jti : Option String) (op : Res (Option OPMeta))
    (redirectURI state scope : String) (add : AMap (List String)) : Res URL :=
  match op with
  | .error e => .error e
  | .ok none => .error .panic
  | .ok (some op) =>
    match (f.rop.requestObject sign now jti (some (requestParams op redirectURI state scope add))).1 with
    | none => .error .error
    | some ro =>
      match parse op.authorizationEndpoint with
      | none => .error .error
      | some u => .ok { u with query := [("client_id", f.entityID), ("redirect_uri", redirectURI), ("request", ro), ("response_type", "code"),
          ("scope", scope)] }

/-! ## Code exchange -/

/-- `OIDCTokenResponse` (authcode.go:25-34). -/
def tokenTags : List String := ["access_token", "token_type", "expires_in", "refresh_token", "scope", "id_token"]

/-- `OIDCErrorResponse` (authcode.go:19-22). -/
def errorTags : List String := ["error", "error_description"]

/-- Decoding the fields of a token response (`OIDCTokenResponse.UnmarshalJSON`, authcode.go:37-47): strings, except `expires_in`, which is an `int64`. (Go also rejects integers written with
a fraction or an exponent; that is not distinguished here.) -/
def tokenDec : FieldDec := fun t cur v =>
  if t = "expires_in" then
    match v with
    | .num q => if q.den = 1 ∧ wrap64 q.num = q.num then some (some (.num q)) else none
    | .null => some cur
    | _ => none
  else decString cur v

/-- Decoding the fields of an error response. -/
def errorDec : FieldDec := fun _ cur v => decString cur v

/-- A JSON body as the members to be decoded into a struct; null is accepted and sets nothing. -/
def bodyMembers : JV → Option JObj
  | .obj l => some l
  | .null => some []
  | _ => none

/-- What `CodeExchange` returns if no error: a token or an error response. -/
inductive ExchangeResult where
  | token (t : JStruct)
  | oidcError (e : String)

/-- The end of `CodeExchange` (authcode.go:194-209); `body` is the JSON value received, `none` if it could not be read or is not JSON. The
status code is not looked at. -/
def readTokenResponse (body : Option JV) : Option ExchangeResult :=
  match body.bind bodyMembers with
  | none => none
  | some l =>
    match unmarshalObj errorTags errorDec l with
    | none => none
    | some e =>
      if strOf (e.known "error") ≠ "" then some (.oidcError (strOf (e.known "error")))
      else (unmarshalObj tokenTags tokenDec l).map .token

/-- The parameters sent (authcode.go:173-187), up to the client assertion. -/
def exchangeParams (f : Leaf) (code redirectURI : String) (params : Option (AMap (List String))) : AMap (List String) :=
  ((((params.getD []).put "grant_type" ["authorization_code"]).put "code" [code]).put "redirect_uri" [redirectURI]).put "client_id" [f.entityID]

/-- With the client assertion (authcode.go:186-187). -/
def assertedParams (m : AMap (List String)) (assertion : String) : AMap (List String) :=
  (m.put "client_assertion_type" ["urn:ietf:params:oauth:client-assertion-type:jwt-bearer"]).put "client_assertion" [assertion]

/-- What happened in a `CodeExchange`. -/
structure Exchange where
  /-- the request sent, if any: endpoint and form -/
  sent : Option (String × AMap (List String))
  result : Res ExchangeResult
  /-- the caller's parameters afterwards -/
  caller : Option (AMap (List String))

/-- `CodeExchange` (authcode.go:165-210). `post` is what the OP answers. -/
def Leaf.codeExchange (f : Leaf) (sign : Signer) (post : String → AMap (List String) → Option JV) (now : Int) (jti : Option String)
    (op : Res (Option OPMeta)) (code redirectURI : String) (params : Option (AMap (List String))) : Exchange :=
  match op with
  | .error e => ⟨none, .error e, params⟩
  | .ok none => ⟨none, .error .panic, params.map (fun _ => exchangeParams f code redirectURI params)⟩
  | .ok (some op) =>
    let m := exchangeParams f code redirectURI params
    match f.rop.clientAssertion sign now jti op.tokenEndpoint with
    | none => ⟨none, .error .error, params.map (fun _ => m)⟩
    | some a =>
      let m' := assertedParams m a
      ⟨some (op.tokenEndpoint, m'),
        match readTokenResponse (post op.tokenEndpoint m') with
        | none => .error .error
        | some r => .ok r,
        params.map (fun _ => m')⟩

end Oidfed
