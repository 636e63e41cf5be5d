import Verif.Spec.Compliance
import Verif.Spec.Chains
import Verif.Spec.OperatedMeta
/-!
# Metadata that complies with all policies of a chain
-/

namespace Oidfed.Spec

/-- What several policies ask for can be met together: for every attribute `k` there is a value `v k` that complies with
all of them, the defaults they give for it are the same, and none asks for one of several values while another asks for a
set of values. -/
structure Agree (ps : List Policy) (v : String → Val) : Prop where
  notNull : ∀ k, v k ≠ .nil
  complies : ∀ p ∈ ps, ∀ k e, AMap.get p k = some e → Complies e (v k)
  default : ∀ p ∈ ps, ∀ q ∈ ps, ∀ k a b x y, AMap.get p k = some a → AMap.get q k = some b →
    a.get "default" = some x → b.get "default" = some y → SameVal x y
  alone : ∀ p ∈ ps, ∀ q ∈ ps, ∀ k a b, AMap.get p k = some a → AMap.get q k = some b → Has a "one_of" →
    ¬ Has b "add" ∧ ¬ Has b "subset_of" ∧ ¬ Has b "superset_of"

/-- The metadata `em'` states the same as `em`. -/
def KeptMeta (em em' : EntityMeta) : Prop := Each SameField em.fields em'.fields ∧ em'.wasSet = em.wasSet ∧ em'.extra = em.extra

/-- The metadata of `leaf` complies with the policies of all statements of the chain `c`, which can be met together: `v` is
what the leaf states or, for attributes that it does not state, could have stated. -/
structure Follows (leaf : Stmt) (c : Chain) (v : EType → String → Val) : Prop where
  crit : ∀ s ∈ c, ∀ n ∈ s.policyCrit, n ∈ supportedOperators
  known : ∀ s ∈ c, ∀ P, s.policy = some P → P.extra = []
  plain : ∀ s ∈ c, ∀ P, s.policy = some P → ∀ t, PlainPolicy (P.known t) ∧ TypedPolicy (fieldsOf leaf.metadata t) (P.known t)
  agree : ∀ t, Agree ((c.filterMap Stmt.policy).map (fun P => P.known t)) (v t)
  complies : ∀ md t em, leaf.metadata = some md → md.known t = some em → ∀ f ∈ em.fields,
    FieldOk f ∧ ∀ s ∈ c, ∀ P, s.policy = some P → PlainFor (P.known t) f ∧ FieldComplies (P.known t) em.wasSet f ∧
      ∀ e, AMap.get (P.known t) f.tag = some e → f.name ∈ em.wasSet → f.val = v t f.tag

/-- A configured policy with its operator values as dynamic values. -/
def policyVals (N : Numbering) (p : JPolicy) : Policy := p.map (fun ke => (ke.1, entryVals N ke.2))

/-- The leaf has configured what the policies in the statements `ps` ask for: they can be met together (`v` says how), and every attribute of the leaf that one
of them is for has the value that meets them all. `scope` is left out, `one_of` for lists, and `-`, which would be for the map of all additional claims. -/
structure FollowsConfigured (N : Numbering) (types : List String) (leaf : ESPayload) (ps : List ESPayload) (v : EType → String → Val) : Prop where
  crit : ∀ p ∈ ps, ∀ n ∈ p.policyCrit.getD [], n ∈ supportedOperators
  fit : ∀ p ∈ ps, PoliciesFit N p
  plain : ∀ p ∈ ps, ∀ P, p.policy = some P → ∀ t k e, AMap.get (P.known t) k = some e → PlainEntry (entryVals N e)
  named : ∀ p ∈ ps, ∀ P, p.policy = some P → ∀ t, AMap.get (P.known t) "-" = none
  agree : ∀ t, Agree ((ps.filterMap ESPayload.policy).map (fun P => policyVals N (P.known t))) (v t)
  states : ∀ t own, askedOf types leaf t = some own → ∀ f ∈ metaFields t, ∀ p ∈ ps, ∀ P e, p.policy = some P → AMap.get (P.known t) f.tag = some e →
    f.name ≠ "Scope" ∧ (f.kind = .strs → ¬ Has (entryVals N e) "one_of") ∧
      ∃ w, own.val f.name = some w ∧ Informative w ∧ f.kind.goVal N.obj (some w) = v t f.tag

end Oidfed.Spec
