import Verif.Spec.Federation
/-!
# Comparing federations with different constraints
-/

namespace Oidfed.Spec
open Oidfed

/-- The statement without its constraints. -/
def noConstraints (s : Stmt) : Stmt := { s with constraints := none }

/-- The constraints `c'` are those of `c`, or allow more: longer paths, further names and further entity types. -/
structure LooserConstraints (c c' : Constraints) : Prop where
  path : ∀ n', c'.maxPath = some n' → ∃ n, c.maxPath = some n ∧ n ≤ n'
  excluded : ∀ n', c'.naming = some n' → ∀ x ∈ n'.excluded, ∃ n, c.naming = some n ∧ x ∈ n.excluded
  permitted : ∀ n' ps', c'.naming = some n' → n'.permitted = some ps' →
    ∃ n ps, c.naming = some n ∧ n.permitted = some ps ∧ ∀ x ∈ ps, x ∈ ps'
  types : ∀ ts', c'.allowedTypes = some ts' → ∃ ts, c.allowedTypes = some ts ∧ ∀ t ∈ ts, t ∈ ts'

/-- `s'` is the statement `s`, with no constraints or with looser ones. -/
def LooserStmt (s s' : Stmt) : Prop :=
  noConstraints s' = noConstraints s ∧ ∀ c', s'.constraints = some c' → ∃ c, s.constraints = some c ∧ LooserConstraints c c'

/-- `W'` is `W` with looser constraints in the statements of superiors; everything else is the same. -/
structure Loosened (W W' : World) : Prop where
  start : W'.start = W.start
  ec : W'.ec = W.ec
  fetch : ∀ p ep sub iss s, W.fetch p ep sub iss = some s → ∃ s', W'.fetch p ep sub iss = some s' ∧ LooserStmt s s'
  sig : W'.sig = W.sig
  host : W'.host = W.host
  nowEC : W'.nowEC = W.nowEC
  nowSub : W'.nowSub = W.nowSub

end Oidfed.Spec
