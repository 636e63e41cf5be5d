import Verif.Model.TrustMark
import Verif.Model.MetaResolver
/-!
# Signed JWTs, key sets and signers (`internal/jwx/jws.go`, `jwks/jwks.go`, `jwtsigning.go`)

Verification and signing are done by `github.com/lestrrat-go/jwx/v3`, of which the following is assumed: `jws.Parse` accepts the compact form
(one signature) and the JSON form (one or more); `jws.Verify` with a key set goes through the signatures in order, takes for each the first key in the
set with the key id of the signature's protected header, tries that key, and succeeds with the first signature that
verifies; a signature without key id or with an id that is not in the set ends it with an error. A key marked for another use than
signatures is not tried. The algorithm is the key's; if it states none, the signature's if it fits the key, otherwise all that fit. The cryptographic
operations themselves are arbitrary functions.
-/

namespace Oidfed

/-- A JWK: key id, use, algorithm, and the (public) key. -/
structure JKey where
  kid : Option String
  use : Option String
  alg : Option String
  key : Nat
deriving DecidableEq, Repr

/-- A signature of a JWS with the members of its protected header that play a role. -/
structure JSig where
  typ : Option String
  kid : Option String
  alg : Option String
  sig : Nat
deriving DecidableEq, Repr

/-- A JWS as parsed by `jws.Parse` (internal/jwx/jws.go:41-48): at least one signature. The payload is a JSON object. -/
structure Jws where
  payload : JObj
  sigs : List JSig

/-- The cryptographic operations. `verify alg key s payload`: the signature `s` over its protected header and the payload verifies;
`algs`: the algorithms a key can be used with; `known`: algorithm names; `pub`: public key of a private key; `thumb`: key id derived from a public
key; `sign alg priv typ kid payload`: signature over header and payload, `none` is an error. -/
structure Crypto where
  verify : String → Nat → JSig → JObj → Bool
  algs : Nat → List String
  known : String → Bool
  pub : Nat → Nat
  thumb : Nat → String
  sign : String → Nat → String → String → JObj → Option Nat

/-- The keys tried for a signature (`keySetProvider.FetchKeys` of jwx with the options of internal/jwx/jws.go:59); `none` is an error. -/
def fetchKeys (C : Crypto) (ks : List JKey) (s : JSig) : Option (List (String × Nat)) :=
  match s.kid with
  | none => none
  | some kid =>
    match ks.find? (fun k => k.kid == some kid) with
    | none => none
    | some k =>
      if !(k.use = none ∨ k.use = some "" ∨ k.use = some "sig") then some []
      else match k.alg with
        | some a => if C.known a then some [(a, k.key)] else none
        | none =>
          match s.alg with
          | some a => if (C.algs k.key).contains a then some [(a, k.key)] else some ((C.algs k.key).map (fun b => (b, k.key)))
          | none => some ((C.algs k.key).map (fun b => (b, k.key)))

/-- The loop over the signatures in `jws.Verify`. -/
def sigLoop (C : Crypto) (ks : List JKey) (payload : JObj) : List JSig → Bool
  | [] => false
  | s :: rest =>
    match fetchKeys C ks s with
    | none => false
    | some pairs => if pairs.any (fun p => C.verify p.1 p.2 s payload) then true else sigLoop C ks payload rest

/-- `ParsedJWT.VerifyWithSet` (internal/jwx/jws.go:51-59): the payload, or `none` for an error. `none` as key set is a nil set, `none` as message a
nil message. -/
def verifyWithSet (C : Crypto) (keys : Option (List JKey)) (m : Option Jws) : Option JObj :=
  match m, keys with
  | some m, some ks => if ks.isEmpty then none else if sigLoop C ks m.payload m.sigs then some m.payload else none
  | _, _ => none

/-- `ParsedJWT.VerifyType` (internal/jwx/jws.go:62-69): the type in the protected header of the first signature. -/
def verifyType (m : Jws) (typ : String) : Bool :=
  match m.sigs with
  | [] => false
  | s :: _ => s.typ == some typ

/-- A parsed and verified JWT of an expected type: `jwx.Parse`, `VerifyType` and `VerifyWithSet` as used for entity statements
(entitystatement.go:245-261, 30-36), trust marks (trustmark.go:80-94, 283-290), delegations (trustmark.go:189-204, 352-370). -/
def acceptAs (C : Crypto) (typ : String) (keys : Option (List JKey)) (m : Jws) : Option JObj :=
  if verifyType m typ then verifyWithSet C keys (some m) else none

/-! ## Signing -/

/-- `GeneralJWTSigner` (jwtsigning.go:22-34); `key = none` is a nil interface. -/
structure JSigner where
  key : Option Nat
  alg : String

/-- `SignPayload`, `SignWithType` (internal/jwx/jws.go:73-101): type and key id in the protected header. -/
def signWithType (C : Crypto) (payload : JObj) (typ alg : String) (key : Nat) : Res Jws :=
  match C.sign alg key typ (C.thumb (C.pub key)) payload with
  | none => .error .error
  | some n => .ok ⟨payload, [⟨some typ, some (C.thumb (C.pub key)), some alg, n⟩]⟩

/-- `GeneralJWTSigner.JWT` (jwtsigning.go:36-48); `payload = none` if the argument cannot be written as JSON. -/
def JSigner.jwt (C : Crypto) (S : JSigner) (payload : Option JObj) (typ : String) : Res Jws :=
  match S.key with
  | none => .error .error
  | some k =>
    match payload with
    | none => .error .error
    | some p => signWithType C p typ S.alg k

/-- `KeyToJWKS` (jwks/jwks.go:93-111); for a public key jwx cannot handle (`algs` is empty) it panics. -/
def keyToJWKS (C : Crypto) (pub : Nat) (alg : String) : Res (List JKey) :=
  if (C.algs pub).isEmpty then .error .panic else .ok [⟨some (C.thumb pub), some "sig", some alg, pub⟩]

/-- `GeneralJWTSigner.JWKS` (jwtsigning.go:50-53): calls a method of the key, which panics on a nil interface. -/
def JSigner.jwks (C : Crypto) (S : JSigner) : Res (List JKey) :=
  match S.key with
  | none => .error .panic
  | some k => keyToJWKS C (C.pub k) S.alg

/-- The four typed signers (jwtsigning.go:84-103) and `TypedJWTSigner` (jwtsigning.go:153-162). Their constructors (jwtsigning.go:55-82, 125-151) only keep key
and algorithm. -/
inductive SignerKind where
  | entityStatement | trustMark | delegation | resolveResponse
  | typed (typ : String)
deriving DecidableEq, Repr

/-- The header type of each signer (jwtsigning.go:105-123; oidfedconst/constants.go:15-18). -/
def SignerKind.typ : SignerKind → String
  | .entityStatement => "entity-statement+jwt"
  | .trustMark => "trust-mark+jwt"
  | .delegation => "trust-mark-delegation+jwt"
  | .resolveResponse => "resolve-response+jwt"
  | .typed t => t

/-- `JWT` of the typed signers (jwtsigning.go:105-123, 159-162). -/
def signAs (C : Crypto) (S : JSigner) (k : SignerKind) (payload : Option JObj) : Res Jws := S.jwt C payload k.typ

/-! ## Key sets as JSON -/

/-- The JSON form of a single key. -/
structure KeyCodec where
  enc : JKey → JV
  dec : JV → Option JKey

/-- `JWKS.MarshalJSON` (jwks/jwks.go:24-28). -/
def marshalKeys (K : KeyCodec) : Option (List JKey) → JV
  | none => .null
  | some ks => .obj [("keys", .arr (ks.map K.enc))]

/-- Decoding the keys one after the other; one that cannot be decoded is an error. -/
def decKeys (K : KeyCodec) : List JV → Option (List JKey)
  | [] => some []
  | v :: l =>
    match K.dec v, decKeys K l with
    | some k, some ks => some (k :: ks)
    | _, _ => none

/-- `JWKS.UnmarshalJSON` (jwks/jwks.go:30-46); outer `none` is an error. An object without `keys` (a single key) is not modelled (error). -/
def unmarshalKeys (K : KeyCodec) : JV → Option (Option (List JKey))
  | .null => some none
  | .obj l =>
    match AMap.get (objMap l) "keys" with
    | some (.arr vs) =>
      match decKeys K vs with
      | none => none
      | some [] => some none
      | some ks => some (some ks)
    | _ => none
  | _ => none

/-- A key set through JSON, which is also what is stored in the cache (`MarshalMsgpack`/`UnmarshalMsgpack`, jwks/jwks.go:74-91) and written to YAML
(jwks/jwks.go:48-72). -/
def throughJSON (K : KeyCodec) (keys : Option (List JKey)) : Option (Option (List JKey)) := unmarshalKeys K (marshalKeys K keys)

/-! ## Link to the other models -/

/-- The other models treat keys and messages as numbers and verification as an arbitrary function `SigOracle` (Model/Statement). This is the one that verification with
a key set (internal/jwx/jws.go:51-59) gives, for any meaning of the numbers. -/
def jwsOracle (C : Crypto) (keyOf : Nat → JKey) (msgOf : Nat → Jws) : SigOracle := fun ks r =>
  sigLoop C (ks.map keyOf) (msgOf r).payload (msgOf r).sigs

/-- `jwx.Parse` (internal/jwx/jws.go:42-48) as the trust mark model uses it: type in the header of the first signature (internal/jwx/jws.go:62-69),
payload, and the number of the message. -/
def readerOf (P : String → Option Jws) (num : String → Nat) : JWTReader := fun jwt =>
  match P jwt with
  | none => none
  | some j =>
    match j.sigs with
    | [] => none
    | s :: _ => some ⟨s.typ.getD "", j.payload, num jwt⟩

/-- The signers that trust mark issuers and owners use (jwtsigning.go:37-48, 111-118; trustmark.go:495, 569): `JWT` of the signer, as a compact string. -/
def signerOf (C : Crypto) (S : JSigner) (ser : Jws → String) : Signer := fun typ p =>
  match S.jwt C (some p) typ with
  | .ok j => some (ser j)
  | .error _ => none

end Oidfed
