import Verif.Spec.Operated
import Verif.Spec.NameQuery
import Verif.Spec.Collector
import Verif.Spec.OperatedMarks
/-!
# Collecting a federation whose entities publish with this library

In terms of what the operators configure.
-/

namespace Oidfed.Spec

/-- A string attribute as configured, `""` if there is none. -/
def ownStr (own : MStruct) (field : String) : String :=
  match own.val field with
  | some (.str s) => s
  | _ => ""

/-- The field with the name of an entity of this type. -/
def nameField : EType → String
  | .op => "OrganizationName"
  | .as => "OrganizationName"
  | .fed => "OrganizationName"
  | .rp => "ClientName"
  | .client => "ClientName"
  | .resource => "ResourceName"

/-- The name that was configured for the type: the display name, or else the name that belongs to the type. -/
def ownName (t : EType) (own : MStruct) : String := if ownStr own "DisplayName" = "" then ownStr own (nameField t) else ownStr own "DisplayName"

/-- Who publishes which configuration. -/
abbrev Directory := ID → Option (ESPayload × Jws)

/-- The configuration of `a` names a list endpoint, and `x` is in the list served there. -/
def ListsOwn (dir : Directory) (listAt : String → Option (List ID)) (a x : ID) : Prop :=
  ∃ p j m own l, dir a = some (p, j) ∧ p.metadata = some m ∧ m.known .fed = some own ∧ ownStr own "FederationListEndpoint" ≠ "" ∧
    listAt (ownStr own "FederationListEndpoint") = some l ∧ x ∈ l

/-- The first of the entity's trust marks that has the type is accepted; `V` says of the type and JWT of a trust mark whether it is verified with the
configuration of the anchor. -/
def FirstMark (V : String → String → Prop) (p : ESPayload) (t : String) : Prop :=
  ∃ (k : Nat) (x : MarkInfo), (p.marks.getD [])[k]? = some x ∧ x.type = t ∧ (∀ k' < k, ∀ x' : MarkInfo, (p.marks.getD [])[k']? = some x' → x'.type ≠ t) ∧ V t x.jwt

/-- The entity's configuration has metadata, for one of the requested types if there are some, a name that matches the query if there is one, and for each of the
requested trust mark types a trust mark that is verified with the configuration of the anchor. -/
def PassesOwn (dir : Directory) (T : TextRules) (V : String → String → Prop) (q : CollectReq) (x : ID) : Prop :=
  ∃ p j m, dir x = some (p, j) ∧ p.metadata = some m ∧ (∀ ts, q.types = some ts → ∃ t : EType, t.tag ∈ ts ∧ (m.known t).isSome) ∧
    (q.name ≠ "" → ∃ t own, m.known t = some own ∧ InOrder (T.norm q.name.toList) (T.norm (ownName t own).toList)) ∧
    ∀ t ∈ q.markTypes, (dir q.anchor).isSome ∧ FirstMark V p t

/-- The trust marks of a statement are those in its JWT, and whether one is verified depends on its type and JWT. -/
structure CollectsMarks (E : CollectEnv) (X : Reader) (msgOf : Nat → Jws) (V : String → String → Prop) (anchor : ID) : Prop where
  marks : ∀ s n q, s.raw = some n → ESPayload.read X.K X.opq (msgOf n).payload = some q →
    E.marks s = (q.marks.getD []).map (fun i => ⟨i.type, i.jwt, i.extra, none⟩)
  verifies : ∀ ta i, E.ec anchor = some ta → i.cached = none → (E.verifies ta i = true ↔ V i.type i.jwt)

/-- `VerifyFederation` with the configuration `ta`, in the environment `M`; `p` and `k` are where and as the how many-eth mark this takes place, and `D` is the default
resolver. -/
def VerifiedWith (M : Env) (D : Default) (fuel : Nat) (p : CallPos) (k : Nat) (ta : Stmt) (type jwt : String) : Prop :=
  ∃ i', (⟨type, jwt, [], none⟩ : Info).verifyFederation M.reader M.sig (M.now p k).1 (M.now p k).2
    (issuerKeys M (p ++ [k]) (D.resolve M fuel (p ++ [k])) (M.anchorOf ta)) (M.anchorOf ta) = some (.ok (true, i'))

end Oidfed.Spec
