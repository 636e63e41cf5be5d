import Verif.Spec.EndToEnd
import Verif.Spec.TrustMark
import Verif.Model.MetaResolver
/-!
# Trust marks as signed JWTs
-/

namespace Oidfed.Spec

/-- The number of a JWT stands for the message that it parses to. -/
def Numbered (P : String → Option Jws) (num : String → Nat) (msgOf : Nat → Jws) : Prop := ∀ s j, P s = some j → msgOf (num s) = j

/-- The JWT is a trust mark with these claims, signed with one of the keys: it parses, its header says that it is a trust mark, and the claims are those of the signed
payload. -/
def MarkSignedWith (C : Crypto) (P : String → Option Jws) (ks : List JKey) (jwt : String) (m : Mark) : Prop :=
  ∃ j o sg, P jwt = some j ∧ verifyType j "trust-mark+jwt" = true ∧ unmarshalObj markTags tmDec j.payload = some o ∧
    m.iss = strOf (o.known "iss") ∧ m.sub = strOf (o.known "sub") ∧ m.type = strOf (o.known "trust_mark_type") ∧
    m.iat = timeOf (o.known "iat") ∧ m.exp = optTimeOf (o.known "exp") ∧ m.delegationJWT = strOf (o.known "delegation") ∧
    SignedBy C ks j sg

/-- The same for a delegation. -/
def DelegationSignedWith (C : Crypto) (P : String → Option Jws) (ks : List JKey) (jwt : String) (d : Delegation) : Prop :=
  ∃ j o sg, P jwt = some j ∧ verifyType j "trust-mark-delegation+jwt" = true ∧ unmarshalObj delegTags tmDec j.payload = some o ∧
    d.iss = strOf (o.known "iss") ∧ d.sub = strOf (o.known "sub") ∧ d.type = strOf (o.known "trust_mark_type") ∧
    d.iat = timeOf (o.known "iat") ∧ d.exp = optTimeOf (o.known "exp") ∧ SignedBy C ks j sg

/-- The trust mark was signed by the entity `e`: with a key that it holds. -/
def MarkSignedByEntity (C : Crypto) (P : String → Option Jws) (Holds : ID → JKey → Prop) (e : ID) (jwt : String) (m : Mark) : Prop :=
  ∃ k, Holds e k ∧ MarkSignedWith C P [k] jwt m

/-- The delegation was signed by the entity `e`. -/
def DelegationSignedByEntity (C : Crypto) (P : String → Option Jws) (Holds : ID → JKey → Prop) (e : ID) (jwt : String) (d : Delegation) : Prop :=
  ∃ k, Holds e k ∧ DelegationSignedWith C P [k] jwt d

/-- All keys of the set are held by `e`. -/
def HeldBy (keyOf : Nat → JKey) (Holds : ID → JKey → Prop) (keys : Keys) (e : ID) : Prop := ∀ ks, keys = some ks → ∀ n ∈ ks, Holds e (keyOf n)

/-- The keys of the entity are found: it is the anchor and the anchor has these keys, or the default resolver, asked about the entity, answers, and these are the keys in the first
statement of its answer, or, if that has no chain, in the configuration the entity itself serves. -/
def AnsweredWith (E : Env) (D : Default) (fuel : Nat) (p : CallPos) (ta : MarkAnchor) (iss : ID) (ks : List Nat) : Prop :=
  (iss = ta.sub ∧ ta.jwks = some ks) ∨
  (iss ≠ ta.sub ∧ ∃ r s, D.resolve E fuel p ⟨iss, [ta.sub], []⟩ = some (.ok r) ∧ s.jwks = some ks ∧
    ((r.chain = [] ∧ E.issuerEC p iss = some s) ∨ ∃ n rest, r.chain = some n :: rest ∧ E.parse n = some s))

end Oidfed.Spec
