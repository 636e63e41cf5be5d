import Verif.Model.Collector
import Verif.Model.AuthCode
/-!
# What is collected about an entity, filters, and remote collection (`discovery.go`, `metadata.go`)
-/

namespace Oidfed

/-! ## Claims of all metadata types -/

/-- The Go type of the field has kind `reflect.String`. -/
def Field.isString (f : Field) : Bool := f.ty == .str

/-- `Metadata.IterateStringClaim` (metadata.go:153-182): the calls of the iterator, in order. -/
def Metadata.iterateString (m : Metadata) (tag : String) : List (String × String) :=
  EType.all.filterMap (fun t => match m.known t with
    | none => none
    | some em => match em.fields.find? (fun f => f.tag == tag && f.isString) with
      | some ⟨_, _, _, .str s⟩ => if s ≠ "" then some (t.tag, s) else none
      | _ => none)

/-- The loop of `Metadata.IterateStringSliceClaim` (metadata.go:119-149) over the entity types. A field is only considered if its kind is
`reflect.String` (line 139); converting it to `[]string` (line 140) panics. -/
def iterateSliceLoop (m : Metadata) (tag : String) : List EType → Res (List (String × List String))
  | [] => .ok []
  | t :: ts => match m.known t with
    | none => iterateSliceLoop m tag ts
    | some em => match em.fields.find? (fun f => f.tag == tag && f.isString) with
      | none => iterateSliceLoop m tag ts
      | some _ => .error .panic

/-- `Metadata.IterateStringSliceClaim` (metadata.go:117-149). -/
def Metadata.iterateSlice (m : Metadata) (tag : String) : Res (List (String × List String)) := iterateSliceLoop m tag EType.all

/-! ## User interface information -/

/-- `UIInfo` (discovery.go:50-58). The `tag` of a field is its whole JSON tag, as `setUIInfoField` sees it. -/
structure UIInfo where
  fields : List Field
  extra : AMap Val

/-- The zero value of `UIInfo`. The last field is `Extra` itself, with the tag "-"; its value is kept in `extra`. -/
def UIInfo.zero : UIInfo :=
  ⟨[⟨"DisplayName", "display_name,omitempty", .str, .str ""⟩, ⟨"Description", "description,omitempty", .str, .str ""⟩,
    ⟨"Keywords", "keywords,omitempty", .slice .str, .slice .str true []⟩, ⟨"LogoURI", "logo_uri,omitempty", .str, .str ""⟩,
    ⟨"PolicyURI", "policy_uri,omitempty", .str, .str ""⟩, ⟨"InformationURI", "information_uri,omitempty", .str, .str ""⟩,
    ⟨"Extra", "-", .obj, .obj none⟩], []⟩

/-- Assign to the first field with the tag. -/
def setFirst (tag : String) (v : Val) : List Field → List Field
  | [] => []
  | f :: fs => if f.tag == tag then { f with val := v } :: fs else f :: setFirst tag v fs

/-- The body of `setUIInfoField` for one `UIInfo` (discovery.go:69-104): `commaIdx` is the length of the tag, so the whole tag is compared. The
values passed are not nil. -/
def UIInfo.set (u : UIInfo) (tag : String) (v : Val) : Option UIInfo :=
  match u.fields.find? (fun f => f.tag == tag) with
  | some f => if v.ty? = some f.ty then some { u with fields := setFirst tag v u.fields } else none
  | none => some { u with extra := u.extra.put tag v }

/-- `CollectedEntity.setUIInfoField` (discovery.go:62-108); nothing changes on an error (line 88). -/
def setUIInfo (infos : AMap UIInfo) (entityType tag : String) (v : Val) : AMap UIInfo :=
  match ((infos.get entityType).getD UIInfo.zero).set tag v with
  | some u => infos.put entityType u
  | none => infos

/-- `uiInfoClaims` (discovery.go:346-351). -/
def uiClaims : List String := ["description", "logo_uri", "policy_uri", "information_uri"]

/-- The claim is wanted: no claims are named, or this one is (discovery.go:342, 353, 365, 377). -/
def wanted (claims : Option (List String)) (c : String) : Bool :=
  match claims with
  | none => true
  | some cs => cs.contains c

/-- The UI information of a collected entity (discovery.go:346-387). The loop over the display names runs in an arbitrary order; the entries are
for different entity types. -/
def collectUI (claims : Option (List String)) (m : Metadata) : Res (AMap UIInfo) :=
  let strings := uiClaims.foldl (fun infos c =>
    if wanted claims c then (m.iterateString c).foldl (fun infos tv => setUIInfo infos tv.1 c (.str tv.2)) infos else infos) []
  match (if wanted claims "keywords" then m.iterateSlice "keywords" else .ok []) with
  | .error f => .error f
  | .ok ks =>
    let keywords := ks.foldl (fun infos tv => setUIInfo infos tv.1 "keywords" (.slice .str false (tv.2.map .str))) strings
    .ok (if wanted claims "display_name" then
      m.displayNames.foldl (fun infos tv => if tv.2 ≠ "" then setUIInfo infos tv.1 "display_name" (.str tv.2) else infos) keywords
    else keywords)

/-- The base name of a tag: `encoding/json` writes the part before the comma. -/
def baseTag (tag : String) : String := String.ofList (tag.toList.takeWhile (fun c => c != ','))

/-- The members written for a `UIInfo` (discovery.go:135-142): the fields that are not empty, then `Extra`, which replaces them. -/
def UIInfo.members (u : UIInfo) : AMap Val :=
  (u.fields.filterMap (fun f => if f.tag = "-" ∨ f.val.isZero then none else some (baseTag f.tag, f.val))).filter
    (fun kv => !(u.extra.keys.contains kv.1)) ++ u.extra

/-! ## Filters -/

/-- `CollectedEntity` (discovery.go:40-48) as far as filters look at it. -/
structure Collected where
  id : ID
  types : List String
  metadata : Option Metadata

/-- The collected entity for an included subordinate (discovery.go:338-344, 389-429); `resolved` is the metadata that the default resolver
finds for it, or none if that fails. -/
def collectedOf (claims : Option (List String)) (id : ID) (m : Metadata) (resolved : Option Metadata) : Collected :=
  ⟨id, if wanted claims "entity_types" then m.entityTypes else [],
    match claims with
    | some cs => if cs.contains "metadata" then resolved else none
    | none => none⟩

/-- The request made by `SimpleOPCollector.CollectEntities` (discovery.go:175-178). -/
def opsOnly (q : CollectReq) : CollectReq := { q with types := some ["openid_provider"] }

/-- `EntityCollectionFilter` (discovery.go:187-189): any function; `none` is a nil pointer. -/
abbrev EFilter := Option Collected → Res Bool

/-- What the `DefaultMetadataResolver` answers: `ResolvePossible` (first result) and `Resolve` (nil if it fails) for a subject and anchors. -/
structure DResolver where
  possible : ID → List ID → Res Bool
  metadata : ID → List ID → Res (Option Metadata)

/-- The inner loop (discovery.go:521-526), `approved` being false before it. -/
def approveLoop (e : Option Collected) : Bool → List EFilter → Res Bool
  | approved, [] => .ok approved
  | _, f :: fs => match f e with
    | .error x => .error x
    | .ok true => approveLoop e true fs
    | .ok false => .ok false

/-- `filterableVerifiedChainsEntityCollector.CollectEntities` (discovery.go:515-532) on what the collector returned. -/
def filterCollected (fs : List EFilter) : List (Option Collected) → Res (List (Option Collected))
  | [] => .ok []
  | e :: es => match approveLoop e false fs with
    | .error x => .error x
    | .ok b => match filterCollected fs es with
      | .error x => .error x
      | .ok out => .ok (if b then e :: out else out)

/-- `EntityCollectionFilterVerifiedChains.Filter` (discovery.go:556-564). -/
def verifiedChains (R : DResolver) (anchors : List ID) : EFilter
  | none => .error .panic
  | some e => R.possible e.id anchors

/-- `FilterableVerifiedChainsEntityCollector.CollectEntities` (discovery.go:535-547) on what the collector returned; with no filters it is
`VerifiedChainsEntityCollector.CollectEntities` (discovery.go:510-512). -/
def verifiedCollect (R : DResolver) (anchor : ID) (fs : List EFilter) (collected : List (Option Collected)) : Res (List (Option Collected)) :=
  filterCollected (verifiedChains R [anchor] :: fs) collected

/-- `getMetadataForCollectedEntity` (discovery.go:595-606). -/
def collectedMetadata (R : DResolver) (anchors : List ID) (e : Collected) : Res (Option Metadata) :=
  match e.metadata with
  | some m => .ok (some m)
  | none => R.metadata e.id anchors

/-- A `[]string` field by tag. -/
def EntityMeta.strs (m : EntityMeta) (tag : String) : List String :=
  match m.fields.find? (fun f => f.tag == tag) with
  | some ⟨_, _, _, .slice .str _ xs⟩ => xs.filterMap (fun v => match v with
    | .str s => some s
    | _ => none)
  | _ => []

/-- The common shape of the filters for OPs (discovery.go:615-624, 636-645, 655-666, 677-688). -/
def opFilter (R : DResolver) (anchors : List ID) (test : EntityMeta → Bool) : EFilter
  | none => .ok false
  | some e => match collectedMetadata R anchors e with
    | .error x => .error x
    | .ok none => .ok false
    | .ok (some m) => match m.known .op with
      | none => .ok false
      | some op => .ok (test op)

/-- `EntityCollectionFilterOPSupportedGrantTypesIncludes` (discovery.go:611-626). -/
def filterGrantTypes (R : DResolver) (anchors : List ID) (needed : List String) : EFilter :=
  opFilter R anchors (fun op => needed.all (fun g => (op.strs "grant_types_supported").contains g))

/-- `EntityCollectionFilterOPSupportedScopesIncludes` (discovery.go:631-647). -/
def filterScopes (R : DResolver) (anchors : List ID) (needed : List String) : EFilter :=
  opFilter R anchors (fun op => needed.all (fun g => (op.strs "scopes_supported").contains g))

/-- `EntityCollectionFilterOPSupportsExplicitRegistration` (discovery.go:651-668). -/
def filterExplicit (R : DResolver) (anchors : List ID) : EFilter :=
  opFilter R anchors (fun op => (op.strs "client_registration_types_supported").contains "explicit")

/-- `EntityCollectionFilterOPSupportsAutomaticRegistration` (discovery.go:673-690). -/
def filterAutomatic (R : DResolver) (anchors : List ID) : EFilter :=
  opFilter R anchors (fun op => (op.strs "client_registration_types_supported").contains "automatic")

/-- `EntityCollectionFilterOPs` (discovery.go:693-702). -/
def filterOPs : EFilter
  | none => .ok false
  | some e => .ok (e.types.contains "openid_provider")

/-! ## Remote collection -/

/-- `apimodel.EntityCollectionRequest` (apimodel/collection.go:4-12). -/
structure FullReq where
  fromID : String
  limit : Nat
  markTypes : List String
  anchor : String
  types : Option (List String)
  name : String
  claims : Option (List String)
deriving DecidableEq, Repr

/-- `query.Values` (third-party go-querystring) of a request: one value per element of a slice, under the `url` tag of the field, or under its Go
name if it has none, as `NameQuery` (apimodel/collection.go:10). -/
def FullReq.params (q : FullReq) : List (String × String) :=
  [("from_entity_id", q.fromID), ("limit", toString q.limit)] ++ q.markTypes.map (fun t => ("trust_mark_type", t)) ++ [("trust_anchor", q.anchor)] ++
    (q.types.getD []).map (fun t => ("entity_type", t)) ++ [("NameQuery", q.name)] ++ (q.claims.getD []).map (fun t => ("claims", t))

/-- `EntityCollectionResponse` (discovery.go:32-37), of the entities the ids; a nil list if the member is missing or null. -/
structure ColResponse where
  entities : Option (List (Option Collected))
  next : String

/-- `SimpleRemoteEntityCollector.CollectEntities` (discovery.go:734-754): `none` for nil. `http` is the answer to a request with these
parameters, `none` for an error or an error response. -/
def remoteCollect (http : String → List (String × String) → Option ColResponse) (endpoint : String) (q : FullReq) :
    Option (List (Option Collected)) :=
  match http endpoint q.params with
  | none => none
  | some r => r.entities

/-- The collection endpoint in an entity configuration, `""` if there is none (discovery.go:778-781). -/
def Stmt.collectionEndpoint (s : Stmt) : String :=
  match s.metadata with
  | none => ""
  | some m => match m.known .fed with
    | none => ""
    | some f => match f.extra.get "federation_collection_endpoint" with
      | some (.str e) => e
      | _ => ""

/-- `utils.RemoveFromSlice` (internal/utils/slices.go:14-22). -/
def removeFromSlice (l : List ID) (v : ID) : List ID := l.filter (fun x => x != v)

/-- The loop of `SmartRemoteEntityCollector.CollectEntities` (discovery.go:772-793). -/
def smartCollectLoop (ec : ID → Option Stmt) (http : String → List (String × String) → Option ColResponse) (q : FullReq) :
    List ID → Option (List (Option Collected))
  | [] => none
  | a :: as => match ec a with
    | none => smartCollectLoop ec http q as
    | some s =>
      if s.collectionEndpoint = "" then smartCollectLoop ec http q as
      else match remoteCollect http s.collectionEndpoint q with
        | none => smartCollectLoop ec http q as
        | some es => some es

/-- `SmartRemoteEntityCollector.CollectEntities` (discovery.go:767-795); `simple` is what the `SimpleEntityCollector` returns. -/
def smartCollect (anchors : List ID) (ec : ID → Option Stmt) (http : String → List (String × String) → Option ColResponse)
    (simple : FullReq → List (Option Collected)) (q : FullReq) : List (Option Collected) :=
  match smartCollectLoop ec http q (q.anchor :: removeFromSlice anchors q.anchor) with
  | some es => es
  | none => simple q

/-! ## Listings -/

/-- What an HTTP client gets from a listing endpoint: the status code, the `error` member of a JSON body, and the body as a list of strings. -/
structure HttpReply where
  code : Nat
  error : String
  body : Option (List ID)

/-- `httpFetchList` with `http.Get` (discovery.go:580-593, internal/http/http.go:46-56); `none` is a request that failed. Of the third-party client it is assumed that
it fills the error only for a code of at least 400, and the result only for codes from 200 to 299; if it fills neither, the result is the empty
list that was passed in. -/
def httpFetchList : Option HttpReply → Option (List ID)
  | none => none
  | some r =>
    if 400 ≤ r.code ∧ r.error ≠ "" then none
    else some (if 200 ≤ r.code ∧ r.code < 300 then r.body.getD [] else [])

/-- The cache of listings: what was stored and until when. -/
abbrev ListCache := String → Option (List ID × Time)

/-- `defaultSubordinateListingCacheTime` (discovery.go:28). -/
def listCacheTime : Int := 3600 * second

/-- `fetchList` (discovery.go:566-578, 704-724) at `now`. `readBack` is what reading a stored list from the cache gives, `none` for a nil list. -/
def fetchList (readBack : List ID → Option (List ID)) (c : ListCache) (now : Time) (endpoint : String) (reply : Option HttpReply) :
    ListCache × Option (List ID) :=
  let miss := match httpFetchList reply with
    | none => (c, none)
    | some ids => ((fun e => if e = endpoint then some (ids, now + listCacheTime) else c e), some ids)
  match c endpoint with
  | none => miss
  | some (ids, exp) =>
    if now < exp then match readBack ids with
      | some l => (c, some l)
      | none => miss
    else miss

/-- A sequence of calls of `fetchList`: time, endpoint, and the reply the endpoint would give. The results are listed, the last one first. -/
def fetchLists (readBack : List ID → Option (List ID)) : ListCache × List (Time × String × Option (List ID)) → List (Time × String × Option HttpReply) →
    ListCache × List (Time × String × Option (List ID))
  | s, [] => s
  | (c, log), (now, ep, reply) :: rest =>
    fetchLists readBack ((fetchList readBack c now ep reply).1, (now, ep, (fetchList readBack c now ep reply).2) :: log) rest

end Oidfed
