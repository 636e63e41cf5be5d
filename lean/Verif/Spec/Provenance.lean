import Verif.Spec.Policy
import Verif.Spec.Independent
/-!
# Where the values in resolved metadata come from
-/

namespace Oidfed.Spec
open Oidfed

/-- The statement's metadata policy has the value `x` in an operator that may put values into this attribute of this entity type: `value`, `add` or `default`. -/
def Brings (s : Stmt) (t : EType) (claim : String) (x : Val) : Prop :=
  ∃ e op v, entryFor t claim s = some e ∧ op ∈ ["value", "add", "default"] ∧ AMap.get e op = some v ∧ x ∈ v.elems

/-- Everything that the attribute `f'` of the resolved metadata holds was stated by the leaf, which has the attribute as `f`, or is brought by one of the statements; or the
attribute was removed. -/
def HasOrigin (c : Chain) (t : EType) (f f' : Field) : Prop :=
  ∃ v, (HeldAs f'.name v f'.val ∨ v = .nil ∧ f'.val = Val.zeroOf f'.ty) ∧ ∀ x ∈ v.elems, x ∈ f.val.elems ∨ ∃ s ∈ c, Brings s t f'.tag x

end Oidfed.Spec
