import Verif.Spec.RelistedChain
/-!
# Metadata that lists the same values in another order
-/

namespace Oidfed.Spec
open Oidfed

/-- The same attributes, of which the stated ones may list their values in another order or repeat them. -/
def RelistedMeta (em em' : EntityMeta) : Prop :=
  Each (fun f g => SameField f g ∧ (f.name ∉ em.wasSet → g.val = f.val)) em.fields em'.fields ∧ em'.wasSet = em.wasSet ∧ em'.extra = em.extra

/-- Metadata for the same entity types, relisted. -/
def RelistedLeaf (m m' : Metadata) : Prop := (∀ t, Option.Rel RelistedMeta (m.known t) (m'.known t)) ∧ m'.extra = m.extra

/-- No statement of the chain has a policy with lists among the values of a `one_of`. -/
def PlainOneOf (c : Chain) : Prop := ∀ s ∈ c, ∀ P, s.policy = some P → ∀ t, FlatOneOf (P.known t)

/-- The field for additional claims is a map, as in every metadata struct. -/
def ExtraIsMap (m : Metadata) : Prop := ∀ t em, m.known t = some em → ∀ f ∈ em.fields, f.tag = "-" → f.ty = .obj ∧ f.val.isSlice = false

end Oidfed.Spec
