import Verif.Model.MarkJSON
import Verif.Spec.TrustMark
import Verif.Spec.JSON
/-!
# What the readers of a trust mark see, and when two specifications are the same
-/

namespace Oidfed.Spec
open Oidfed

/-- Two maps have the same values for the same keys. -/
def SameExtra (a b : AMap JV) : Prop := ∀ k, AMap.get a k = AMap.get b k

/-- Two trust mark specifications agree in everything. -/
def SameSpec (a b : MarkSpec) : Prop :=
  a.type = b.type ∧ a.lifetime = b.lifetime ∧ a.ref = b.ref ∧ a.logo = b.logo ∧ a.includeExtra = b.includeExtra ∧
    a.delegationJWT = b.delegationJWT ∧ SameExtra a.extra b.extra

/-- A time read from a JWT is the intended one but for less than two microseconds. -/
def Near (t intended : Time) : Prop := |t - intended| < 2000

/-- What the reader of a trust mark should see: issuer and subject; type, logo, reference, delegation and additional claims from the
specification; issued at `now`; expiring after the lifetime `l`, or never if that is zero. -/
def ShowsSpec (v : MarkView) (iss sub : String) (s : MarkSpec) (now : Time) (l : Int) : Prop :=
  v.iss = iss ∧ v.sub = sub ∧ v.type = s.type ∧ v.logo = s.logo ∧ v.ref = s.ref ∧ v.delegation = s.delegationJWT ∧
    SameExtra v.extra s.extra ∧ Near v.iat now ∧ (l = 0 → v.exp = none) ∧ (l ≠ 0 → ∃ e, v.exp = some e ∧ Near e (now + l))

/-- What the reader of a delegation should see of what does not concern its expiry. -/
def ShowsOwned (v : DelegView) (iss sub : String) (o : OwnedMark) (now : Time) : Prop :=
  v.iss = iss ∧ v.sub = sub ∧ v.type = o.id ∧ v.ref = o.ref ∧ SameExtra v.extra o.extra ∧ Near v.iat now

/-- The first of the infos with a type. -/
def FirstOfType (l : List Info) (type : String) (i : Info) : Prop :=
  ∃ pre post, l = pre ++ i :: post ∧ i.type = type ∧ ∀ x ∈ pre, x.type ≠ type

/-- The last of the owned marks given for a type. -/
def LastOwned (owned : List OwnedMark) (type : String) (o : OwnedMark) : Prop :=
  ∃ pre post, owned = pre ++ o :: post ∧ o.id = type ∧ ∀ x ∈ post, x.id ≠ type

/-- A lifetime of whole seconds, at most 146 years. -/
def WholeSeconds (d : Int) : Prop := ∃ s : Int, d = s * second ∧ |s * second| ≤ 2 ^ 62

end Oidfed.Spec
