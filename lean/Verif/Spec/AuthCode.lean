import Verif.Model.AuthCode
import Verif.Spec.JSON
/-!
# What is said about request objects, client assertions and authorization URLs
-/

namespace Oidfed.Spec

/-- The object has no member with this name. -/
def NoMember (l : JObj) (k : String) : Prop := ∀ kv ∈ l, kv.1 ≠ k

/-- The claims of a request object that are not simply what the caller gave. -/
def mandated : List String := ["iss", "client_id", "sub", "client_secret", "iat", "exp", "jti"]

/-- The claims of a request object made from the request values `m` by the client `id` at `now`, with the random identifier `fresh`. -/
structure RequestClaims (id : ID) (now lifetime : Int) (fresh : Option String) (m : AMap JV) (claims : JObj) : Prop where
  iss : OnlyMember claims "iss" (.str id)
  client_id : OnlyMember claims "client_id" (.str id)
  no_sub : NoMember claims "sub"
  no_secret : NoMember claims "client_secret"
  iat : OnlyMember claims "iat" (.num now)
  exp : OnlyMember claims "exp" (.num ((now + lifetime : Int) : Rat))
  jti_given : ∀ v, m.get "jti" = some v → OnlyMember claims "jti" v
  jti_fresh : m.get "jti" = none → ∃ j, fresh = some j ∧ OnlyMember claims "jti" (.str j)
  others : ∀ k, k ∉ mandated → ∀ v, OnlyMember claims k v ↔ m.get k = some v

/-- The claims of a client assertion. -/
structure AssertionClaims (id : ID) (now lifetime : Int) (fresh aud : String) (claims : JObj) : Prop where
  iss : OnlyMember claims "iss" (.str id)
  sub : OnlyMember claims "sub" (.str id)
  aud : OnlyMember claims "aud" (.str aud)
  iat : OnlyMember claims "iat" (.num now)
  exp : OnlyMember claims "exp" (.num ((now + lifetime : Int) : Rat))
  jti : OnlyMember claims "jti" (.str fresh)
  only : ∀ kv ∈ claims, kv.1 ∈ ["iss", "sub", "aud", "iat", "exp", "jti"]

/-- `now + lifetime` is an `int64`. -/
def NoOverflow (now lifetime : Int) : Prop := -9223372036854775808 ≤ now + lifetime ∧ now + lifetime ≤ 9223372036854775807

/-- An additional parameter as a claim: a single value as a string, several (or no) values as a list of strings. -/
def ParamClaim (vals : List String) (v : JV) : Prop := (∃ s, vals = [s] ∧ v = .str s) ∨ (vals.length ≠ 1 ∧ v = .arr (vals.map .str))

/-- The members of a token response that have a field of their own (RFC 6749 section 5.1 and OpenID Connect Core section 3.1.3.3). -/
def tokenFields : List String := ["access_token", "token_type", "expires_in", "refresh_token", "scope", "id_token"]

/-- A member fits the field of that name: `expires_in` is an integer of 64 bits, the others are strings; null is left out. -/
def FitsToken (k : String) (v : JV) : Prop :=
  v = .null ∨ if k = "expires_in" then ∃ i : Int, v = .num i ∧ -2 ^ 63 ≤ i ∧ i < 2 ^ 63 else ∃ s, v = .str s

end Oidfed.Spec
