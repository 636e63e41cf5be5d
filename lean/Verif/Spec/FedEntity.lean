import Verif.Model.FedEntity
import Verif.Spec.AuthCode
/-!
# What is said about published entity configurations
-/

namespace Oidfed.Spec

/-- A goroutine running alone, at one moment: the steps of the interleaved model of the refresher. -/
inductive SoloRun (cfg : RefreshConfig) (now : Time) (ans : Option String) : RefreshVars → RPC → RefreshVars → RPC → Prop
  | refl (v : RefreshVars) (pc : RPC) : SoloRun cfg now ans v pc v pc
  | step {v v1 v2 : RefreshVars} {pc pc1 pc2 : RPC} {spawn : Bool} : rstep cfg now ans v pc = some (v1, pc1, spawn) →
      SoloRun cfg now ans v1 pc1 v2 pc2 → SoloRun cfg now ans v pc v2 pc2

/-- A call of `TrustMarkJWT` returns `r` and leaves the fields `v`. -/
def Returns (m : OwnMark) (now : Time) (ans : Option String) (r : CallResult) (v : RefreshVars) : Prop :=
  SoloRun m.cfg now ans m.vars (m.cfg.entry now) v (.done (some r))

/-- The mark can be provided: a call of `TrustMarkJWT` returns it without error. -/
def Provided (m : OwnMark) (now : Time) (ans : Option String) (jwt : String) : Prop := ∃ r v, Returns m now ans r v ∧ r.ok = true ∧ r.jwt = jwt

/-- The mark cannot be provided. -/
def NotProvided (m : OwnMark) (now : Time) (ans : Option String) : Prop := ∃ r v, Returns m now ans r v ∧ r.ok = false

/-- `out` are the types and JWTs of exactly those of the marks (the first of which has number `n`) that can be provided, in order. -/
inductive ExactlyProvided (now : Time) (ans : Nat → Option String) : Nat → List OwnMark → List (String × String) → Prop
  | nil (n : Nat) : ExactlyProvided now ans n [] []
  | take {n : Nat} {m : OwnMark} {ms : List OwnMark} {out : List (String × String)} {jwt : String} : Provided m now (ans n) jwt →
      ExactlyProvided now ans (n+1) ms out → ExactlyProvided now ans n (m :: ms) ((m.type, jwt) :: out)
  | skip {n : Nat} {m : OwnMark} {ms : List OwnMark} {out : List (String × String)} : NotProvided m now (ans n) →
      ExactlyProvided now ans (n+1) ms out → ExactlyProvided now ans n (m :: ms) out

/-- The configured claims of an entity: names and values. -/
def configuredClaims (hints metadata : Option JV) (jwks : JV) (issuers owners : Option JV) : List (String × Option JV) :=
  [("jwks", some jwks), ("authority_hints", hints), ("metadata", metadata), ("trust_mark_issuers", issuers), ("trust_mark_owners", owners)]

/-- A trust mark, given by its type and its JWT, as it stands in the claim `trust_marks`. -/
def publishedMark (m : String × String) : JV := .obj [("trust_mark", .str m.2), ("trust_mark_type", .str m.1)]

end Oidfed.Spec
