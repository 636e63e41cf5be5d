import Verif.Model.Resolver
/-!
# What is said about the endpoints of federation entities
-/

namespace Oidfed.Spec

/-- The configuration says, in its metadata as a federation entity, that the endpoint of this name is at `u`. -/
def PublishesAt (s : Stmt) (name u : String) : Prop :=
  u ≠ "" ∧ ∃ m f x, s.metadata = some m ∧ m.known .fed = some f ∧ x ∈ f.fields ∧ x.tag = name ∧ x.val = .str u

end Oidfed.Spec
