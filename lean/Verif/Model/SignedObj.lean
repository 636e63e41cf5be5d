import Verif.Model.TrustMark
/-!
# Objects that show the claims of a JWT and keep it for verification (`entitystatement.go`, `trustmark.go`)

`EntityStatement`, `TrustMark` and `DelegationJWT` have the same shape: exported fields with the claims, `Extra`, and an unexported message, which only parsing sets.
-/

namespace Oidfed

/-- One of the three kinds: the `typ` of its JWTs, the tags of its fields, how members are decoded into them, and what verification asks of the claims besides the
signature (nothing for statements, entitystatement.go:30-36; the time and the delegation for trust marks, trustmark.go:286-311; the time for delegations,
trustmark.go:353-361). -/
structure SignedKind where
  typ : String
  tags : List String
  dec : FieldDec
  check : JStruct → Bool

/-- An object of such a kind (entitystatement.go:24-27, trustmark.go:150-162, 314-323): the claims it shows and the number of the message, if it has one. -/
structure SignedObj where
  shown : JStruct
  raw : Option Nat

/-- The zero value. -/
def SignedObj.zero : SignedObj := ⟨⟨fun _ => none, []⟩, none⟩

/-- `ParseEntityStatement` (entitystatement.go:244-261), `ParseTrustMark` (trustmark.go:80-93), `parseDelegationJWT` (trustmark.go:189-204). -/
def SignedKind.parse (K : SignedKind) (R : JWTReader) (jwt : String) : Option SignedObj :=
  match R jwt with
  | none => none
  | some c => if c.typ ≠ K.typ then none else (unmarshalObj K.tags K.dec c.payload).map (fun o => ⟨o, some c.raw⟩)

/-- `json.Unmarshal` into an object (entitystatement.go:174-184 as promoted to `EntityStatement`, trustmark.go:177-187, 338-348): the fields whose members are missing
stay, `Extra` is replaced, the message stays. An error leaves the object. -/
def SignedObj.decode (K : SignedKind) (o : SignedObj) (l : JObj) : SignedObj :=
  match decodeKnown K.tags K.dec l o.shown.known with
  | none => o
  | some f => ⟨⟨f, (objMap l).filter (fun kv => !(K.tags.contains kv.1))⟩, o.raw⟩

/-- Verification with a key set (entitystatement.go:30-36, trustmark.go:286-311, 353-361). -/
def SignedObj.verify (K : SignedKind) (sig : SigOracle) (keys : Keys) (o : SignedObj) : Bool := K.check o.shown && verifyRaw sig keys o.raw

/-- What happens to a variable that holds such an object. -/
inductive SignedUse where
  /-- it is assigned the result of parsing a JWT, unless that fails -/
  | parse (jwt : String)
  /-- a JSON object is decoded into it -/
  | decode (l : JObj)
  /-- the caller assigns to its exported fields -/
  | assign (shown : JStruct)
  /-- it is assigned a new object made by the caller -/
  | make (shown : JStruct)

/-- The variable afterwards. -/
def SignedObj.after (K : SignedKind) (R : JWTReader) (o : SignedObj) : SignedUse → SignedObj
  | .parse jwt => (K.parse R jwt).getD o
  | .decode l => o.decode K l
  | .assign s => ⟨s, o.raw⟩
  | .make s => ⟨s, none⟩

/-- The variable after several uses. -/
def SignedObj.run (K : SignedKind) (R : JWTReader) (o : SignedObj) (us : List SignedUse) : SignedObj := us.foldl (SignedObj.after K R) o

end Oidfed
