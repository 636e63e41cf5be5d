import Verif.Spec.Policy
import Verif.Spec.Independent
/-!
# What takes values out of resolved metadata
-/

namespace Oidfed.Spec
open Oidfed

/-- The statement's metadata policy prescribes the value of this attribute, or a set of allowed values for it, without `x`. -/
def Excludes (s : Stmt) (t : EType) (claim : String) (x : Val) : Prop :=
  ∃ e op v, entryFor t claim s = some e ∧ op ∈ ["value", "subset_of"] ∧ AMap.get e op = some v ∧ x ∉ v.elems

end Oidfed.Spec
