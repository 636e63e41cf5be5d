import Verif.Model.SignedObj
/-!
# What a verified object stands for
-/

namespace Oidfed.Spec

/-- The JWT is of the kind's type, its payload can be read, and it is signed with one of the keys. -/
def GenuineJWT (K : SignedKind) (R : JWTReader) (sig : SigOracle) (keys : Keys) (jwt : String) : Prop :=
  ∃ c ks, R jwt = some c ∧ c.typ = K.typ ∧ (unmarshalObj K.tags K.dec c.payload).isSome ∧ keys = some ks ∧ ks ≠ [] ∧ sig ks c.raw = true

/-- The object shows the claims of this JWT. -/
def ShowsJWT (K : SignedKind) (R : JWTReader) (jwt : String) (shown : JStruct) : Prop :=
  ∃ c, R jwt = some c ∧ unmarshalObj K.tags K.dec c.payload = some shown

/-- The use leaves the variable alone: a JWT that cannot be parsed. -/
def Harmless (K : SignedKind) (R : JWTReader) : SignedUse → Prop
  | .parse jwt => K.parse R jwt = none
  | _ => False

/-- The use does not parse a JWT and does not replace the object. -/
def Overwrites : SignedUse → Prop
  | .decode _ => True
  | .assign _ => True
  | _ => False

/-- The use does not give the variable an object with a JWT. -/
def NoJWT (K : SignedKind) (R : JWTReader) : SignedUse → Prop
  | .parse jwt => K.parse R jwt = none
  | _ => True

end Oidfed.Spec
