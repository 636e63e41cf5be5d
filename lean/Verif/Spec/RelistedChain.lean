import Verif.Spec.Relisted
import Verif.Spec.AnyOrder
import Verif.Model.Statement
/-!
# Chains with the same policies in another order
-/

namespace Oidfed.Spec
open Oidfed

/-- Chains (of more than one statement) in which the same policies are stated, in any order, and the same operators are declared critical. -/
structure PrescribePermuted (c c' : Chain) : Prop where
  superiors : 2 ≤ c.length ∧ 2 ≤ c'.length
  policies : (c.filterMap Stmt.policy).Perm (c'.filterMap Stmt.policy)
  crit : ∀ op, (∃ s ∈ c, op ∈ s.policyCrit) ↔ (∃ s ∈ c', op ∈ s.policyCrit)

/-- All policies stated in the chain are ordinary, are for the known entity types only, have only plain values in `one_of`, and agree on which values and defaults are arrays. -/
structure OrdinaryChain (c : Chain) : Prop where
  ordinary : ∀ P ∈ c.filterMap Stmt.policy, ∀ t, OrdinaryPolicy (P.known t)
  flat : ∀ P ∈ c.filterMap Stmt.policy, ∀ t, FlatOneOf (P.known t)
  kinds : ∀ t, SameKinds ((c.filterMap Stmt.policy).map (fun P => P.known t))
  noExtra : ∀ P ∈ c.filterMap Stmt.policy, P.extra = []

/-- Metadata for the same entity types, with the same attributes up to the order and number of the elements of lists, and the same for other entity types. -/
def SameUpToOrder (m m' : Metadata) : Prop :=
  (∀ t, Option.Rel (fun em em' : EntityMeta => Each SameAttribute em.fields em'.fields ∧ em'.wasSet = em.wasSet ∧ em'.extra = em.extra) (m.known t) (m'.known t)) ∧ m'.extra = m.extra

end Oidfed.Spec
