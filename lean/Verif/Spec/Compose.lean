import Verif.Spec.Chains
/-!
# Vocabulary for relating the chains of an entity to those of its superiors
-/

namespace Oidfed.Spec
open Oidfed

/-- Every question has one answer: configurations, statements and clock readings do not depend on the moment at which the resolver asks for them, and the
configuration of an entity is the same whether the entity is resolved or is an authority of another. -/
structure Steady (W : World) : Prop where
  ec : ∀ p id, W.ec p id = W.start id
  fetch : ∀ p, W.fetch p = W.fetch []
  nowEC : ∀ p, W.nowEC p = W.nowEC []
  nowSub : ∀ p, W.nowSub p = W.nowSub []

/-- The entity `l` with configuration `leaf` is a subordinate of the authority with configuration `auth` by the statement `s`, and is allowed below `up`, the
statements above the authority (the first one is about the authority, the last one is the configuration of the anchor). -/
structure Enrolled (W : World) (A : List Anchor) (l : ID) (leaf auth s : Stmt) (up : Chain) : Prop where
  served : W.start l = some leaf
  metadata : leaf.metadata ≠ none
  not_anchor : leaf.iss ∉ A.map Anchor.id
  hinted : auth.iss ∈ leaf.hints
  auth_self : auth.sub = auth.iss
  auth_time : InWindow (W.nowEC []) auth
  auth_fetch : auth.fetchEndpoint ≠ ""
  fetched : W.fetch [] auth.fetchEndpoint leaf.iss auth.iss = some s
  s_iss : s.iss = auth.iss
  s_sub : s.sub = leaf.iss
  s_time : InWindow (W.nowSub []) s
  leaf_signed : Signed W.sig s.jwks leaf
  s_signed : ∀ t, up.head? = some t → Signed W.sig t.jwks s
  new : ∀ t ∈ auth :: up, t.sub ≠ leaf.sub
  allowed : ConstraintsOk W.host 0 [leaf.sub] leaf.entityTypes s
  allowed_above : ∀ k t, up.dropLast[k]? = some t → ConstraintsOk W.host (k+1) [leaf.sub] leaf.entityTypes t

end Oidfed.Spec
