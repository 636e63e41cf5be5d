import Verif.Model.StmtJSON
import Verif.Model.TrustMark
/-!
# Messages that state each claim once
-/

namespace Oidfed.Spec
open Oidfed

/-- No two members of a JSON object have names that agree, up to upper and lower case. -/
def DistinctMembers (l : JObj) : Prop := (l.map (fun kv => foldName kv.1)).Nodup

end Oidfed.Spec
