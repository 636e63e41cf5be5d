import Verif.Model.StmtJSON
import Verif.Spec.MetaJSON
/-!
# What it means that a statement says the same
-/

namespace Oidfed

/-- An empty list becomes nil. -/
def noEmpty (l : Option (List String)) : Option (List String) := if l = some [] then none else l

/-- What is left of naming constraints when they are written: an empty list of permitted names is left out. -/
def Naming.strip (n : Naming) : Naming := { n with permitted := noEmpty n.permitted }

/-- What is left of constraints when they are written: also an empty list of allowed entity types is left out. -/
def Constraints.strip (c : Constraints) : Constraints := { c with naming := c.naming.map Naming.strip, allowedTypes := noEmpty c.allowedTypes }

/-- What a payload says once it is written: empty lists in its constraints are left out (C110 has what this means). -/
def ESPayload.asWritten (p : ESPayload) : ESPayload := { p with constraints := p.constraints.map Constraints.strip }

end Oidfed

namespace Oidfed.Spec

/-- The same keys, with related values. -/
def SameMap {α β : Type} (R : α → β → Prop) (a : AMap α) (b : AMap β) : Prop := ∀ k, Option.Rel R (AMap.get a k) (AMap.get b k)

/-- The same length, with related elements. -/
def SameList {α β : Type} (R : α → β → Prop) (a : List α) (b : List β) : Prop := ∀ n : Nat, Option.Rel R a[n]? b[n]?

/-- The same elements; nil and empty lists are not told apart. -/
def SameElems {α : Type} (a b : Option (List α)) : Prop := a.getD [] = b.getD []

/-- The same attributes with the same operators with the same values. -/
def SamePolicyJSON (a b : JPolicy) : Prop := SameMap (SameMap Eq) a b

/-- The same policies for all entity types. -/
structure SamePolicies (a b : JPolicies) : Prop where
  known : ∀ t, SamePolicyJSON (a.known t) (b.known t)
  extra : SameMap SamePolicyJSON a.extra b.extra

/-- The same values in all fields, and the same additional claims. -/
structure SameMeta (t : EType) (a b : MStruct) : Prop where
  fields : ∀ f ∈ metaFields t, SameContent (b.val f.name) (a.val f.name)
  extra : SameMap Eq a.extra b.extra

/-- The same entity types with the same metadata. -/
structure SameMetadata (a b : JMetadata) : Prop where
  known : ∀ t, Option.Rel (SameMeta t) (a.known t) (b.known t)
  extra : SameMap Eq a.extra b.extra

/-- The same trust mark. -/
structure SameInfo (a b : MarkInfo) : Prop where
  type : a.type = b.type
  jwt : a.jwt = b.jwt
  extra : SameMap Eq a.extra b.extra

/-- The same owner. -/
structure SameOwner (a b : OwnerInfo) : Prop where
  id : a.id = b.id
  keys : SameElems a.jwks b.jwks

/-- `q` says what `p` says, up to a difference of less than two microseconds in the times. -/
structure SameClaims (p q : ESPayload) : Prop where
  iss : q.iss = p.iss
  sub : q.sub = p.sub
  iat : |q.iat - p.iat| < 2000
  exp : |q.exp - p.exp| < 2000
  keys : SameElems q.jwks p.jwks
  aud : q.aud = p.aud
  hints : SameElems q.hints p.hints
  metadata : Option.Rel SameMetadata p.metadata q.metadata
  policy : Option.Rel SamePolicies p.policy q.policy
  constraints : q.constraints = p.constraints
  crit : SameElems q.crit p.crit
  policyCrit : SameElems q.policyCrit p.policyCrit
  marks : SameList SameInfo (p.marks.getD []) (q.marks.getD [])
  issuers : SameMap Eq p.issuers q.issuers
  owners : SameMap SameOwner p.owners q.owners
  source : q.source = p.source
  anchorID : q.anchorID = p.anchorID
  extra : SameMap Eq p.extra q.extra

/-- No list in the constraints is empty without being nil. -/
def NoEmptyLists (c : Constraints) : Prop := c.allowedTypes ≠ some [] ∧ ∀ n, c.naming = some n → n.permitted ≠ some []

/-- Additional claims: the keys of a map are different, and none is, up to upper and lower case, the name of a claim with a field of its own. -/
def ExtraOk (tags : List String) (e : AMap JV) : Prop := e.WF ∧ ∀ k ∈ e.keys, ∀ t ∈ tags, Apart t k

/-- A metadata struct with values of the right types. -/
structure MetaOk (opq : Opaque) (t : EType) (m : MStruct) : Prop where
  extra : ExtraOk ((metaFields t).map MField.tag) m.extra
  typed : ∀ f ∈ metaFields t, ∀ w, m.val f.name = some w → decMeta opq f.kind w = some (some w)
  nonnil : ∀ f ∈ metaFields t, m.val f.name = none → f.kind.zero = none

/-- A payload a program can make: the keys of every map are different, integers are in range, times are in the years 1823 to 2116, metadata has the types of the
fields; there are no policies for unknown entity types, and additional claims keep apart from the others. -/
structure PayloadOk (opq : Opaque) (p : ESPayload) : Prop where
  iat : |p.iat| ≤ 2 ^ 62
  exp : |p.exp| ≤ 2 ^ 62
  maxPath : ∀ c n, p.constraints = some c → c.maxPath = some n → minDuration ≤ n ∧ n ≤ maxDuration
  metadata : ∀ m, p.metadata = some m → ExtraOk (EType.all.map EType.tag) m.extra ∧ ∀ t s, m.known t = some s → MetaOk opq t s
  policy : ∀ q, p.policy = some q → q.extra = [] ∧ ∀ t, (q.known t).WF ∧ ∀ ae ∈ q.known t, ae.2.WF
  marks : ∀ i ∈ p.marks.getD [], ExtraOk infoTags i.extra
  issuers : p.issuers.WF
  owners : p.owners.WF
  extra : ExtraOk entityStatementTags p.extra

end Oidfed.Spec
