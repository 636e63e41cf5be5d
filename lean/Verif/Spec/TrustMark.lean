import Verif.Model.MetaResolver
import Verif.Spec.Federation
/-!
# What it means for a trust mark to be in order
-/

namespace Oidfed.Spec
open Oidfed

/-- `now` is within the validity given by an issue time and an optional expiry; a zero time counts as not given. -/
def ValidAt (now iat : Time) (exp : Option Time) : Prop :=
  (iat = Time.zero ∨ iat ≤ now) ∧ ∀ e, exp = some e → e = Time.zero ∨ now ≤ e

/-- The message verifies under a non-empty key set according to the signature oracle. -/
def SignedRaw (sig : SigOracle) (keys : Keys) (raw : Option Nat) : Prop :=
  ∃ ks r, keys = some ks ∧ ks ≠ [] ∧ raw = some r ∧ sig ks r = true

/-- The mark carries a delegation for its own type, issued by the owner to the mark's issuer, valid at `now` and signed with the owner's
keys. -/
def DelegatedBy (R : JWTReader) (sig : SigOracle) (now : Time) (o : Owner) (m : Mark) : Prop :=
  m.delegationJWT ≠ "" ∧ ∃ d, parseDelegation R m.delegationJWT = some d ∧ d.type = m.type ∧ d.iss = o.id ∧ d.sub = m.iss ∧
    ValidAt now d.iat d.exp ∧ SignedRaw sig o.jwks d.raw

/-- The mark is valid at `nowM`, signed with the given keys and, if an owner is given, delegated by it. -/
def MarkOk (R : JWTReader) (sig : SigOracle) (nowM nowD : Time) (keys : Keys) (owner : Option Owner) (m : Mark) : Prop :=
  ValidAt nowM m.iat m.exp ∧ SignedRaw sig keys m.raw ∧ ∀ o, owner = some o → DelegatedBy R sig nowD o m

/-- The delegation kept in the mark, if any, is the one in its JWT. Holds of every parsed mark. -/
def CacheOk (R : JWTReader) (m : Mark) : Prop :=
  m.deleg = none ∨ m.delegationJWT ≠ "" ∧ m.deleg = parseDelegation R m.delegationJWT

/-- The parsed mark kept in a trust mark object, if any, is the one in its JWT. Holds of every decoded or issued object. -/
def InfoOk (R : JWTReader) (i : Info) : Prop :=
  ∀ m, i.cached = some m → m.raw ≠ none →
    parseMark R i.jwt = some { m with deleg := none } ∧ CacheOk R m

/-- What a trust mark object has to satisfy: its JWT is a trust mark of the type the object names, and that mark is in order. -/
def InfoAccepted (R : JWTReader) (sig : SigOracle) (nowM nowD : Time) (keys : Keys) (owner : Option Owner) (i : Info) : Prop :=
  ∃ m, parseMark R i.jwt = some m ∧ m.type = i.type ∧ MarkOk R sig nowM nowD keys owner m

/-- The anchor lets the issuer issue marks of this type: it lists no issuers for it or lists this one. -/
def IssuerAllowed (ta : MarkAnchor) (type : String) (iss : ID) : Prop :=
  ∀ m l, ta.issuers = some m → AMap.get m type = some l → iss ∈ l

/-- Times for which the library's clock arithmetic is precise: between 1823 and 2116. -/
def InRange (t : Time) : Prop := |t| ≤ 2 ^ 62

/-- The lifetime an issued mark gets: the caller's if given, else the configured one. Zero means without expiry. -/
def Lifetime (configured : Int) (custom : List Int) (l : Int) : Prop :=
  (∃ rest, custom = l :: rest) ∨ custom = [] ∧ l = configured

end Oidfed.Spec
