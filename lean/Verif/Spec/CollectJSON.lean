import Verif.Model.CollectJSON
import Verif.Spec.ResolveJSON
/-!
# What it means that a collection response says the same
-/

namespace Oidfed.Spec

/-- The text under a name: in `Extra`, or else in the field. -/
def uiText (u : JUI) (name field : String) : String :=
  match AMap.get u.extra name with
  | some (.str s) => s
  | _ => field

/-- The keywords: in `Extra`, or else in the field. -/
def uiKeywords (u : JUI) : List String :=
  match AMap.get u.extra "keywords" with
  | some (.arr l) => l.filterMap (fun v => match v with
    | .str s => some s
    | _ => none)
  | _ => u.keywords.getD []

/-- The same information; what has a field of its own is in this field. -/
structure SameUI (a b : JUI) : Prop where
  displayName : b.displayName = uiText a "display_name" a.displayName
  description : b.description = uiText a "description" a.description
  logoURI : b.logoURI = uiText a "logo_uri" a.logoURI
  policyURI : b.policyURI = uiText a "policy_uri" a.policyURI
  informationURI : b.informationURI = uiText a "information_uri" a.informationURI
  keywords : b.keywords.getD [] = uiKeywords a
  extra : ∀ k, k ∉ uiTags → AMap.get b.extra k = AMap.get a.extra k
  fieldsOnly : ∀ k ∈ uiTags, AMap.get b.extra k = none

/-- The same entity, except for its metadata, which is not sent. -/
structure SameEntity (a b : JEntity) : Prop where
  id : b.id = a.id
  marks : SameList SameInfo (a.marks.getD []) (b.marks.getD [])
  chain : b.chain.getD [] = a.chain.getD []
  types : SameElems b.types a.types
  ui : SameMap SameUI a.ui b.ui
  extra : SameMap Eq a.extra b.extra

/-- The same entities in the same order, the same next page, and the same time up to two microseconds. -/
structure SameCollection (a b : JCollection) : Prop where
  entities : Option.Rel (SameList (Option.Rel SameEntity)) a.entities b.entities
  next : b.next = a.next
  updated : Option.Rel (fun s t => |t - s| < 2000) a.updated b.updated

/-- UI information a collector can make: additional claims have different names; if one has the name of a field then it has the type of the field. -/
def UIOk (u : JUI) : Prop := u.extra.WF ∧ ∀ k v, AMap.get u.extra k = some v → (∀ t ∈ uiTags, Apart t k) ∨
  (k ∈ uiTags ∧ k ≠ "keywords" ∧ ∃ s, v = .str s) ∨ (k = "keywords" ∧ ∃ l : List String, v = .arr (l.map .str))

/-- An entity a collector can make. -/
structure EntityOk (P : String → Option Jws) (e : JEntity) : Prop where
  chain : ∀ m ∈ e.chain.getD [], ∃ x, m = some x ∧ P x.raw = some x.msg
  marks : ∀ i ∈ e.marks.getD [], ExtraOk infoTags i.extra
  ui : e.ui.WF ∧ ∀ tu ∈ e.ui, UIOk tu.2
  extra : ExtraOk entityTags e.extra

/-- A response a server can make, with a time in the years 1823 to 2116. -/
structure CollectionOk (P : String → Option Jws) (c : JCollection) : Prop where
  entities : ∀ e ∈ c.entities.getD [], ∀ x, e = some x → EntityOk P x
  updated : ∀ t, c.updated = some t → |t| ≤ 2 ^ 62

end Oidfed.Spec
