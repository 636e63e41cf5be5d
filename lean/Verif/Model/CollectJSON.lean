import Verif.Model.ResolveJSON
import Verif.Model.Discovery
/-!
# Entity collection responses as JSON (`discovery.go:30-58, 110-156, 726-754`)

The response with its Go values, how a server writes it and how a remote collector reads it. Simplifications as in Model/StmtJSON.
-/

namespace Oidfed

/-- `UIInfo` (discovery.go:50-58). -/
structure JUI where
  displayName : String
  description : String
  keywords : Option (List String)
  logoURI : String
  policyURI : String
  informationURI : String
  extra : AMap JV

/-- `CollectedEntity` (discovery.go:40-48). -/
structure JEntity where
  id : String
  marks : Option (List MarkInfo)
  chain : Option (List (Option PJwt))
  metadata : Option JMetadata
  types : Option (List String)
  ui : AMap JUI
  extra : AMap JV

/-- `EntityCollectionResponse` (discovery.go:32-37). -/
structure JCollection where
  entities : Option (List (Option JEntity))
  next : String
  updated : Option Time
  extra : AMap JV

/-- The text in a field of a collected `UIInfo`, by its base tag. -/
def UIInfo.text (u : UIInfo) (tag : String) : String :=
  match u.fields.find? (fun f => baseTag f.tag == tag) with
  | some ⟨_, _, _, .str s⟩ => s
  | _ => ""

/-- The values a collector stores in UI information: strings and lists of strings (discovery.go:356, 368, 380). -/
def uiValue : Val → JV
  | .str s => .str s
  | .slice _ _ xs => .arr (xs.filterMap (fun v => match v with
    | .str s => some (.str s)
    | _ => none))
  | _ => .null

/-- A `UIInfo` as Model/Discovery has it; the keywords are never in their field (see `UIInfo.set`). -/
def UIInfo.toJUI (u : UIInfo) : JUI where
  displayName := u.text "display_name"
  description := u.text "description"
  keywords := none
  logoURI := u.text "logo_uri"
  policyURI := u.text "policy_uri"
  informationURI := u.text "information_uri"
  extra := u.extra.map (fun kv => (kv.1, uiValue kv.2))

/-! ## Writing -/

/-- Tags of `UIInfo` (discovery.go:50-58). -/
def uiTags : List String := ["display_name", "description", "keywords", "logo_uri", "policy_uri", "information_uri"]

/-- The fields of `UIInfo` in JSON (discovery.go:50-58). -/
def uiFields (u : JUI) (t : String) : Option JV :=
  if t = "display_name" then omitStr u.displayName
  else if t = "description" then omitStr u.description
  else if t = "keywords" then omitStrs u.keywords
  else if t = "logo_uri" then omitStr u.logoURI
  else if t = "policy_uri" then omitStr u.policyURI
  else if t = "information_uri" then omitStr u.informationURI
  else none

/-- `UIInfo.MarshalJSON` (discovery.go:135-142). -/
def uiJV (u : JUI) : JV := .obj (marshalObj uiTags ⟨uiFields u, u.extra⟩)

/-- Tags of `CollectedEntity` (discovery.go:40-48); the metadata is not exported and has none. -/
def entityTags : List String := ["entity_id", "trust_marks", "trust_chain", "entity_types", "ui_infos"]

/-- The fields of `CollectedEntity` in JSON, given the texts of the JWTs in the chain (discovery.go:40-48). -/
def entityFields (e : JEntity) (raws : List String) (t : String) : Option JV :=
  if t = "entity_id" then some (.str e.id)
  else if t = "trust_marks" then omitList markInfoJV e.marks
  else if t = "trust_chain" then omitStrs (some raws)
  else if t = "entity_types" then omitStrs e.types
  else if t = "ui_infos" then (if e.ui.isEmpty then none else some (mapJV uiJV e.ui))
  else none

/-- `CollectedEntity.MarshalJSON` (discovery.go:111-118). -/
def entityJV (e : JEntity) : Res JV :=
  match rawJwts (e.chain.getD []) with
  | .error f => .error f
  | .ok raws => .ok (.obj (marshalObj entityTags ⟨entityFields e raws, e.extra⟩))

/-- A list of pointers to entities. -/
def entitiesJV : List (Option JEntity) → Res (List JV)
  | [] => .ok []
  | none :: l =>
    match entitiesJV l with
    | .error f => .error f
    | .ok r => .ok (.null :: r)
  | some e :: l =>
    match entityJV e, entitiesJV l with
    | .error f, _ => .error f
    | _, .error f => .error f
    | .ok v, .ok r => .ok (v :: r)

/-- Tags of `EntityCollectionResponse` (discovery.go:32-37). -/
def collectionTags : List String := ["federation_entities", "next_entity_id", "last_updated"]

/-- The fields of `EntityCollectionResponse` in JSON, given the entities (discovery.go:32-37). -/
def collectionFields (c : JCollection) (vs : List JV) (t : String) : Option JV :=
  if t = "federation_entities" then some (match c.entities with
    | none => .null
    | some _ => .arr vs)
  else if t = "next_entity_id" then omitStr c.next
  else if t = "last_updated" then c.updated.map (fun u => .num (marshalTime u))
  else none

/-- An `EntityCollectionResponse` in JSON; the type has no `MarshalJSON`, so `Extra` is not written (discovery.go:32-37). -/
def JCollection.write (c : JCollection) : Res JObj :=
  match entitiesJV (c.entities.getD []) with
  | .error f => .error f
  | .ok vs => .ok (writeFields collectionTags (collectionFields c vs))

/-! ## Reading -/

/-- Decoding of the fields of `UIInfo`. -/
def uiDec : FieldDec := fun t cur v => if t = "keywords" then keepIf (fun v => (decStrs v).isSome) v else decString cur v

/-- The decoded fields of a `UIInfo`. -/
def JUI.ofStruct (o : JStruct) : JUI where
  displayName := strOf (o.known "display_name")
  description := strOf (o.known "description")
  keywords := strsOf (o.known "keywords")
  logoURI := strOf (o.known "logo_uri")
  policyURI := strOf (o.known "policy_uri")
  informationURI := strOf (o.known "information_uri")
  extra := o.extra

/-- `UIInfo.UnmarshalJSON` into a zero struct (discovery.go:145-156). -/
def decUI : JV → Option JUI
  | .null => some (JUI.ofStruct ⟨fun _ => none, []⟩)
  | .obj l => (unmarshalObj uiTags uiDec l).map JUI.ofStruct
  | _ => none

/-- Decoding of the fields of `CollectedEntity`. -/
def entityDec (P : String → Option Jws) : FieldDec := fun t cur v =>
  if t = "entity_id" then decString cur v
  else if t = "trust_marks" then keepIf (fun v => (decInfos v).isSome) v
  else if t = "trust_chain" then chainDec P cur v
  else if t = "entity_types" then keepIf (fun v => (decStrs v).isSome) v
  else keepInto (· ++ ·) (fun v => (decMap decUI v).isSome) cur v

/-- The decoded fields of a `CollectedEntity`. -/
def JEntity.ofStruct (P : String → Option Jws) (o : JStruct) : JEntity where
  id := strOf (o.known "entity_id")
  marks := (o.known "trust_marks").bind decInfos
  chain := (o.known "trust_chain").bind (fun v => (parseJwts P (chainTexts (some v))).map (fun l => l.map some))
  metadata := none
  types := strsOf (o.known "entity_types")
  ui := ((o.known "ui_infos").bind (decMap decUI)).getD []
  extra := o.extra

/-- A pointer to a `CollectedEntity`: null is nil, otherwise `CollectedEntity.UnmarshalJSON` (discovery.go:121-132). -/
def decEntity (P : String → Option Jws) : JV → Option (Option JEntity)
  | .null => some none
  | .obj l => (unmarshalObj entityTags (entityDec P) l).map (fun o => some (JEntity.ofStruct P o))
  | _ => none

/-- A slice of pointers to `CollectedEntity`. -/
def decEntities (P : String → Option Jws) : JV → Option (List (Option JEntity))
  | .arr l => decList (decEntity P) l
  | _ => none

/-- Decoding of the fields of `EntityCollectionResponse`; `last_updated` is a pointer. -/
def collectionDec (P : String → Option Jws) : FieldDec := fun t cur v =>
  if t = "federation_entities" then keepIf (fun v => (decEntities P v).isSome) v
  else if t = "next_entity_id" then decString cur v
  else match v with
    | .null => some none
    | .num q => some (some (.num q))
    | _ => none

/-- Reading an `EntityCollectionResponse` (discovery.go:740-744). -/
def JCollection.read (P : String → Option Jws) (l : JObj) : Option JCollection :=
  (decodeKnown collectionTags (collectionDec P) l (fun _ => none)).map (fun f =>
    ⟨(f "federation_entities").bind (decEntities P), strOf (f "next_entity_id"), optTimeOf (f "last_updated"), []⟩)

/-- `SimpleRemoteEntityCollector.CollectEntities` (discovery.go:734-754) given the answer: status, `error` member, and the body as JSON; `none` is nil. resty reads the
body of a successful answer into the response. -/
def collectFrom (P : String → Option Jws) : Option (Nat × String × Option JObj) → Option (List (Option JEntity))
  | none => none
  | some (status, err, body) =>
    if 400 ≤ status ∧ err ≠ "" then none
    else if 200 ≤ status ∧ status < 300 then
      match body with
      | none => none
      | some l => (JCollection.read P l).bind (fun c => c.entities)
    else none

/-- The response as Model/Discovery has it. -/
def JCollection.toResponse (N : Numbering) (c : JCollection) : ColResponse where
  entities := c.entities.map (fun l => l.map (fun e => e.map (fun e => ⟨e.id, e.types.getD [], e.metadata.map (JMetadata.toMetadata N)⟩)))
  next := c.next

end Oidfed
