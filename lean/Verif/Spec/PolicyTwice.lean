import Verif.Spec.Policy
/-!
# Policies that may be stated more than once
-/

namespace Oidfed.Spec
open Oidfed

/-- Policies as the federation specification describes them: a valid policy of known operators, whose set-valued operators have arrays that are not empty (or null), and
whose `essential` is a boolean. -/
structure ProperPolicy (p : Policy) : Prop extends KnownPolicy p where
  valid : Policy.verify p = .ok ()
  lists : ∀ k e op v, AMap.get p k = some e → op ∈ ["add", "one_of", "subset_of", "superset_of"] → e.get op = some v →
    v = .nil ∨ ∃ x xs, v = .slice .any false (x :: xs)
  booleans : ∀ k e v, AMap.get p k = some e → e.get "essential" = some v → ∃ b, v = .bool b

end Oidfed.Spec
