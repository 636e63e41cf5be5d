import Verif.Spec.Federation
/-!
# Vocabulary for comparing configurations that differ in their authority hints
-/

namespace Oidfed.Spec

/-- The answers of other entities, and the clock, do not depend on the moment at which the resolver asks. -/
structure Timeless (W : World) : Prop where
  ec : ∀ p, W.ec p = W.ec []
  fetch : ∀ p, W.fetch p = W.fetch []
  nowEC : ∀ p, W.nowEC p = W.nowEC []
  nowSub : ∀ p, W.nowSub p = W.nowSub []

/-- Two configurations of an entity with the same keys that only differ in their authority hints (and their signatures). -/
structure SameButHints (sig : SigOracle) (x y : Stmt) : Prop where
  iss : y.iss = x.iss
  sub : y.sub = x.sub
  metadata : y.metadata = x.metadata
  policy : y.policy = x.policy
  policyCrit : y.policyCrit = x.policyCrit
  signed : ∀ ks, Signed sig ks x ↔ Signed sig ks y

end Oidfed.Spec
