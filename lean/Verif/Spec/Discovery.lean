import Verif.Model.Discovery
import Verif.Spec.Collector
/-!
# Vocabulary for filters, UI information and remote collection
-/

namespace Oidfed.Spec
open Oidfed

/-- A metadata struct as Go makes it: each JSON tag occurs once, and exactly the fields of type string contain strings. -/
structure GoStruct (em : EntityMeta) : Prop where
  tags : (em.fields.map Field.tag).Nodup
  strings : ∀ f ∈ em.fields, f.ty = .str ↔ ∃ s, f.val = .str s

/-- All metadata of an entity is. -/
def GoMetadata (m : Metadata) : Prop := ∀ t em, m.known t = some em → GoStruct em

/-- The metadata for type `t` has the claim `c` with the non-empty string `v`. -/
def HasString (m : Metadata) (t : EType) (c v : String) : Prop :=
  v ≠ "" ∧ ∃ em f, m.known t = some em ∧ f ∈ em.fields ∧ f.tag = c ∧ f.ty = .str ∧ f.val = .str v

/-- The metadata for type `t` has the claim `c` with the list of strings `vs`. -/
def HasStrings (m : Metadata) (t : EType) (c : String) (vs : List String) : Prop :=
  ∃ em f, m.known t = some em ∧ f ∈ em.fields ∧ f.tag = c ∧ f.ty = .slice .str ∧ f.val = .slice .str false (vs.map .str)

/-- The entity's name for type `t`: `display_name`, or else the name that belongs to the type. -/
def HasName (m : Metadata) (t : EType) (v : String) : Prop :=
  HasString m t "display_name" v ∨ ((¬ ∃ w, HasString m t "display_name" w) ∧ HasString m t (nameClaim t) v)

/-- In the JSON of the UI information for type `t`, the member `c` has the value `v`. -/
def UIShows (infos : AMap UIInfo) (t : EType) (c : String) (v : Val) : Prop :=
  ∃ u, infos.get t.tag = some u ∧ u.members.get c = some v

/-- An OP for which the test holds, according to its metadata: that which was collected, or else that which is resolved. -/
def IsOP (R : DResolver) (anchors : List ID) (e : Collected) (test : EntityMeta → Prop) : Prop :=
  ∃ m op, (e.metadata = some m ∨ (e.metadata = none ∧ R.metadata e.id anchors = .ok (some m))) ∧ m.known .op = some op ∧ test op

/-- The claim `c` of the metadata is a list that contains the string `v`. -/
def ListsString (em : EntityMeta) (c v : String) : Prop := ∃ f ∈ em.fields, f.tag = c ∧ ∃ isNil vs, f.val = .slice .str isNil vs ∧ Val.str v ∈ vs

/-- The value of a query parameter, `""` if it is missing. -/
def paramOf (ps : List (String × String)) (k : String) : String := ((ps.filter (fun p => p.1 == k)).map (·.2)).headD ""

/-- All values of a query parameter. -/
def paramsOf (ps : List (String × String)) (k : String) : List String := (ps.filter (fun p => p.1 == k)).map (·.2)

/-- What a server that follows the `query` tags of `EntityCollectionRequest` (apimodel/collection.go:4-12) reads from the parameters, except for the
number `limit`. -/
structure Received where
  fromID : String
  markTypes : List String
  anchor : String
  types : List String
  name : String
  claims : List String
deriving DecidableEq

def receive (ps : List (String × String)) : Received :=
  ⟨paramOf ps "from_entity_id", paramsOf ps "trust_mark_type", paramOf ps "trust_anchor", paramsOf ps "entity_type", paramOf ps "name_query",
    paramsOf ps "claims"⟩

/-- What the user asked for. -/
def asked (q : FullReq) : Received := ⟨q.fromID, q.markTypes, q.anchor, q.types.getD [], q.name, q.claims.getD []⟩

/-- All pages of an endpoint, from the request on: a page with the id of the next one is followed by the pages from that id on. -/
inductive Pages (http : String → List (String × String) → Option ColResponse) (endpoint : String) : FullReq → List (Option Collected) → Prop where
  | last {q : FullReq} {es : List (Option Collected)} : http endpoint q.params = some ⟨some es, ""⟩ → Pages http endpoint q es
  | more {q : FullReq} {es rest : List (Option Collected)} {next : String} : http endpoint q.params = some ⟨some es, next⟩ → next ≠ "" →
      Pages http endpoint { q with fromID := next } rest → Pages http endpoint q (es ++ rest)

/-- The configuration names this collection endpoint. -/
def CollectionAt (s : Stmt) (ep : String) : Prop :=
  ep ≠ "" ∧ ∃ m f, s.metadata = some m ∧ m.known .fed = some f ∧ f.extra.get "federation_collection_endpoint" = some (.str ep)

/-- The collection endpoint of `a` answers the request with `es`. -/
def Answers (ec : ID → Option Stmt) (http : String → List (String × String) → Option ColResponse) (q : FullReq) (a : ID) (es : List (Option Collected)) :
    Prop :=
  ∃ s ep r, ec a = some s ∧ CollectionAt s ep ∧ http ep q.params = some r ∧ r.entities = some es

/-- The endpoint answered with success. -/
def Served (r : Option HttpReply) (l : List ID) : Prop := ∃ x, r = some x ∧ 200 ≤ x.code ∧ x.code < 300 ∧ x.body = some l

/-- The request failed, was answered with success, or with an error response as the federation specification has it. -/
def Honest : Option HttpReply → Prop
  | none => True
  | some x => (200 ≤ x.code ∧ x.code < 300 ∧ x.body.isSome) ∨ (400 ≤ x.code ∧ x.error ≠ "")

end Oidfed.Spec
