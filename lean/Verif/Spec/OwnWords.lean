import Verif.Spec.Federation
/-!
# What an intermediate says about itself
-/

namespace Oidfed.Spec

/-- Two configurations of an entity that agree in who it is, when they are valid, which authorities it names, of which types it is, where its statements can be fetched, and under
which keys they verify. They may differ in everything else: keys, policies, constraints, critical claims and all other metadata. -/
structure AlikeAsSuperior (sig : SigOracle) (x y : Stmt) : Prop where
  iss : y.iss = x.iss
  sub : y.sub = x.sub
  iat : y.iat = x.iat
  exp : y.exp = x.exp
  hints : y.hints = x.hints
  types : y.entityTypes = x.entityTypes
  endpoint : y.fetchEndpoint = x.fetchEndpoint
  signed : ∀ ks, Signed sig ks x ↔ Signed sig ks y

/-- `f` serves for every entity the configuration that `W` serves, or one alike if the entity is not an anchor. -/
def Reworded (W : World) (A : List Anchor) (f : Pos → ID → Option Stmt) : Prop :=
  ∀ p id, f p id = W.ec p id ∨ id ∉ A.map Anchor.id ∧ ∃ x y, W.ec p id = some x ∧ f p id = some y ∧ AlikeAsSuperior W.sig x y

end Oidfed.Spec
