import Verif.Model.Resolver
/-!
# The same federation with other `crit` claims
-/

namespace Oidfed.Spec
open Oidfed

/-- The statement with another `crit` claim, which `g` chooses for each message. -/
def WithCrit (g : Option Nat → List String) (s : Stmt) : Stmt := { s with crit := g s.raw }

/-- The world in which all servers serve the same statements but with other `crit` claims. -/
def WorldWithCrit (g : Option Nat → List String) (W : World) : World :=
  { W with
    start := fun e => (W.start e).map (WithCrit g)
    ec := fun p e => (W.ec p e).map (WithCrit g)
    fetch := fun p u sub iss => (W.fetch p u sub iss).map (WithCrit g) }

end Oidfed.Spec
