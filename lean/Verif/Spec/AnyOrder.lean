import Verif.Spec.Policy
/-!
# Policies that can be combined in any order
-/

namespace Oidfed.Spec
open Oidfed

/-- A valid policy of known operators, whose set-valued operators have arrays, whose `essential` is a boolean, and whose `value` and `default` list no element twice. -/
structure OrdinaryPolicy (p : Policy) : Prop extends PlainPolicy p where
  valid : Policy.verify p = .ok ()
  arrays : ∀ k e op v, AMap.get p k = some e → op ∈ ["add", "one_of", "subset_of", "superset_of"] → e.get op = some v → ∃ n xs, v = .slice .any n xs
  booleans : ∀ k e v, AMap.get p k = some e → e.get "essential" = some v → ∃ b, v = .bool b

end Oidfed.Spec
