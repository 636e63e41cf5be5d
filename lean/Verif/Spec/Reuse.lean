import Verif.Model.Reuse
/-!
# What a caller expects of a resolver that was used before
-/

namespace Oidfed.Spec

/-- The starting configuration is obtained. -/
def Obtains (W : World) (r : Resolver) : Prop := r.start ≠ "" ∧ ∃ s, W.start r.start = some s

/-- A use that leaves the resolver's fields alone and never verifies less than `ResolveToValidChains…` does. -/
def CallsOnly (us : List (World × Nat)) : List ResolverUse := us.map (fun u => .call u.1 u.2)

/-- The latest of the calls in which the starting configuration was obtained and that finished, with the chains that a new resolver returns for it. -/
def LastObtained (r : Resolver) (us : List (World × Nat)) (cs : List Chain) : Prop :=
  (cs = [] ∧ ∀ u ∈ us, Obtains u.1 r → ∀ cs', r.chainsNoMeta u.1 u.2 ≠ .ok (some cs')) ∨
  ∃ pre u post, us = pre ++ u :: post ∧ Obtains u.1 r ∧ r.chainsNoMeta u.1 u.2 = .ok (some cs) ∧
    ∀ v ∈ post, Obtains v.1 r → ∀ cs', r.chainsNoMeta v.1 v.2 ≠ .ok (some cs')

end Oidfed.Spec
