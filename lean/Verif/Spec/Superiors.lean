import Verif.Model.Resolver
/-!
# The entities that a resolution is about
-/

namespace Oidfed.Spec

/-- `id` is a superior on the way from the configuration `s0` to the anchors `A`: it is hinted at by `s0`, or by the configuration that another such superior
serves, unless the hinting entity is itself an anchor. -/
inductive Superior (W : World) (A : List Anchor) (s0 : Stmt) : ID → Prop
  | hinted {id : ID} : s0.iss ∉ A.map Anchor.id → id ∈ s0.hints → Superior W A s0 id
  | further {a id : ID} {p : Pos} {e : Stmt} : Superior W A s0 a → W.ec p a = some e → e.iss = a → a ∉ A.map Anchor.id → id ∈ e.hints → Superior W A s0 id

end Oidfed.Spec
