import Verif.Model.Statement
/-!
# Vocabulary for the independence of attributes
-/

namespace Oidfed.Spec
open Oidfed

/-- What the statement's metadata policy says about one attribute of one entity type, if anything. -/
def entryFor (t : EType) (claim : String) (s : Stmt) : Option Entry := s.policy.bind (fun P => AMap.get (P.known t) claim)

end Oidfed.Spec
