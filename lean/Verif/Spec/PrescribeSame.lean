import Verif.Model.Statement
/-!
# Vocabulary for chains that prescribe the same
-/

namespace Oidfed.Spec
open Oidfed

/-- Both chains have superiors, or neither has. The metadata policies stated in them, from the leaf upwards, are the same, where statements without a policy do not count.
The operators declared critical anywhere in them are the same, too. -/
def PrescribeSame (c c' : Chain) : Prop :=
  (c.length ≤ 1 ↔ c'.length ≤ 1) ∧
  c.filterMap Stmt.policy = c'.filterMap Stmt.policy ∧
  ∀ op, (∃ s ∈ c, op ∈ s.policyCrit) ↔ (∃ s ∈ c', op ∈ s.policyCrit)

end Oidfed.Spec
