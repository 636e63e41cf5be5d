import Verif.Model.OwnMarks
import Verif.Spec.MarkJSON
import Verif.Spec.Refresher
/-!
# What is said about the trust marks an entity publishes
-/

namespace Oidfed.Spec
open Oidfed

/-- The configuration names all that is needed: a JWT that states its type; or else a type and, unless the mark is self-issued, an issuer. -/
def Acceptable (J : String → Option ConfiguredJWT) (c : MarkConfig) : Prop :=
  (c.jwt ≠ "" ∧ ∃ p t, J c.jwt = some p ∧ p.type = some t) ∨ (c.jwt = "" ∧ c.type ≠ "" ∧ (c.selfIssued = true ∨ c.issuer ≠ ""))

/-- The type and the issuer that are configured: those of the JWT, if there is one. -/
def ConfiguredAs (J : String → Option ConfiguredJWT) (c : MarkConfig) (type issuer : String) : Prop :=
  (c.jwt = "" ∧ type = c.type ∧ issuer = c.issuer) ∨ (c.jwt ≠ "" ∧ ∃ p, J c.jwt = some p ∧ p.type = some type ∧ issuer = p.iss.getD "")

/-- Where marks of an issuer are to be asked for: the entity's own endpoint if it is the issuer itself, otherwise the one in the issuer's entity configuration. -/
def EndpointFor (W : MarkWorld) (sub own issuer e : String) : Prop := (issuer = sub ∧ e = own) ∨ (issuer ≠ sub ∧ W.endpoint issuer = some e ∧ e ≠ "")

/-- The JWT was issued with the library by the issuer for the type and the subject at the time `t`, with the specification `s`, and can be read by `R`. -/
def IssuedJustNow (R : JWTReader) (issuer type sub : String) (t : Time) (s : MarkSpec) (jwt : String) : Prop :=
  ∃ (I : MarkIssuer) (info : Info), I.id = issuer ∧ I.spec type = some s ∧ I.issue t type sub [] = some info ∧ info.jwt = jwt ∧
    (∃ raw, R jwt = some ⟨"trust-mark+jwt", I.payload s t sub [], raw⟩) ∧ s.extra.WF ∧ (∀ k ∈ s.extra.keys, ∀ n ∈ markTags, Apart n k) ∧
    InRange t ∧ InRange (t + s.lifetime)

/-- Whenever the issuer is asked for a mark of the type for the subject it answers with one it has just issued, or not at all. -/
def HonestIssuer (R : JWTReader) (worlds : Time → MarkWorld → Prop) (own issuer type sub : String) : Prop :=
  ∀ t W e, worlds t W → EndpointFor W sub own issuer e → ∀ a, W.get e type sub = some a → (400 ≤ a.status ∧ a.err ≠ "") ∨ ∃ s, IssuedJustNow R issuer type sub t s a.body

end Oidfed.Spec
