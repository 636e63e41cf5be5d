import Verif.Model.Policy
/-!
# Entity metadata and policy application (`metadata.go`, `metadata_generated.go`, `internal/utils/structs.go`)

A metadata struct (for instance `OpenIDRelyingPartyMetadata`) is modelled as the list of its exported fields with a JSON tag,
in declaration order, each with its Go name, JSON tag, static type and current value, plus the unexported `wasSet` map and
the additional claims in the `Extra` map.  The theorems quantify over all such lists, so they hold for the six concrete structs.

The `Extra` field carries the tag `-` and is, like every other field, addressed by a policy entry named so; it is one of the
fields, with the map as an opaque value.
-/

namespace Oidfed

/-- One exported field of a metadata struct (metadata_generated.go:14-32, 160-231, 409-500, 682-715). -/
structure Field where
  name : String
  tag : String
  ty : Ty
  val : Val
deriving DecidableEq, Repr

/-- A metadata struct. `wasSet` lists the Go names of the fields for which `wasSet[name]` is true; `extra` are the claims in the map `Extra`. -/
structure EntityMeta where
  fields : List Field
  wasSet : List String
  extra : AMap Val
deriving DecidableEq, Repr

/-- The entity types that are fields of `Metadata` (metadata.go:14-20). -/
inductive EType where
  | op | rp | as | client | resource | fed
deriving DecidableEq, Repr

/-- Field order of `Metadata` (metadata.go:15-20). -/
def EType.all : List EType := [.op, .rp, .as, .client, .resource, .fed]

/-- JSON tags of the fields of `Metadata` (metadata.go:15-20) and of `MetadataPolicies` (metadataPolicy.go:15-20). -/
def EType.tag : EType → String
  | .op => "openid_provider"
  | .rp => "openid_relying_party"
  | .as => "oauth_authorization_server"
  | .client => "oauth_client"
  | .resource => "oauth_resource"
  | .fed => "federation_entity"

/-- `Metadata` (metadata.go:14-23); `none` in `extra` is a nil map. -/
structure Metadata where
  known : EType → Option EntityMeta
  extra : Option (AMap Val)

/-- The zero `Metadata{}` (trustchain.go:94). -/
def Metadata.empty : Metadata := ⟨fun _ => none, none⟩

/-- `MetadataPolicies` (metadataPolicy.go:14-23). For the further entity types nil (`none`) and empty policies are kept apart, since applying a policy distinguishes them. -/
structure Policies where
  known : EType → Policy
  extra : AMap (Option Policy)

/-- `Metadata.GuessEntityTypes` (metadata.go:31-44): the tags of the non-nil pointer fields; `Extra` is a map and skipped. -/
def Metadata.entityTypes (m : Metadata) : List String :=
  (EType.all.filter (fun t => (m.known t).isSome)).map EType.tag

/-- Value of a string field by JSON tag, the zero value if the struct has no such field. Used for
`FederationEntity.FederationFetchEndpoint` and friends, which in Go are direct field accesses. -/
def EntityMeta.str (m : EntityMeta) (tag : String) : String :=
  match m.fields.find? (fun f => f.tag == tag) with
  | some ⟨_, _, _, .str s⟩ => s
  | _ => ""

/-- `utils.NilAllExceptByTag` (internal/utils/structs.go:12-51) applied to a non-nil `*Metadata`: fields whose tag is not
listed are zeroed; a non-nil `Extra` keeps only the listed keys (and stays non-nil). -/
def Metadata.restrict (m : Metadata) (types : List String) : Metadata where
  known t := if types.contains t.tag then m.known t else none
  extra := m.extra.map (fun x => x.filter (fun kv => types.contains kv.1))

/-! ## Applying a policy to one struct -/

/-- `strings.Join(strSlice, " ")` (metadata.go:303) on the elements of a `[]string`. -/
def joinScope : List Val → String
  | [] => ""
  | [.str s] => s
  | .str s :: xs => s ++ " " ++ joinScope xs
  | _ :: xs => joinScope xs

/-- Lines 299-305 of `applyPolicy` (metadata.go): a `[]string` for the field named `Scope` is joined to one string. -/
def scopeJoin (name : String) (v : Val) : Val :=
  match v with
  | .slice .str _ xs => if name = "Scope" then .str (joinScope xs) else v
  | v => v

/-- Lines 306-310 of `applyPolicy` (metadata.go): assign the result to the field; `reflect.Value.Set` panics unless the
dynamic type is the field's type; the nil interface zeroes the field. -/
def setField (f : Field) (v : Val) : Res Field :=
  match v.ty? with
  | none => .ok { f with val := Val.zeroOf f.ty }
  | some t => if t = f.ty then .ok { f with val := v } else .error .panic

/-- One iteration of the field loop of `applyPolicy` (metadata.go:284-311). -/
def applyField (policy : Policy) (wasSet : List String) (f : Field) : Res Field :=
  match AMap.get policy f.tag with
  | none => .ok f
  | some p => do
      let v ← Entry.applyTo p f.val (wasSet.contains f.name)
      setField f (scopeJoin f.name v)

/-- The field loop of `applyPolicy` (metadata.go:284-311); the first error or panic ends it. -/
def applyFields (policy : Policy) (wasSet : List String) : List Field → Res (List Field)
  | [] => .ok []
  | f :: fs => do
      let f' ← applyField policy wasSet f
      let fs' ← applyFields policy wasSet fs
      .ok (f' :: fs')

/-- The map in the field `Extra`, the one with the tag `-` (metadata_generated.go:23, 220, 478, 694). -/
def extraMap (fs : List Field) : Option Val := (fs.find? (fun f => f.tag == "-")).map Field.val

/-- `applyPolicy` on a struct pointer (metadata.go:275-314); the receiver is a copy, so the original is not modified
(metadata_generated.go:155, 404, 677, 836; metadata.go:402, 437). If the field `Extra` got another map, the additional claims are gone; what is
in the new map is not modelled further. -/
def EntityMeta.apply (m : EntityMeta) (policy : Policy) : Res EntityMeta := do
  let fs ← applyFields policy m.wasSet m.fields
  .ok { m with fields := fs, extra := if extraMap fs = extraMap m.fields then m.extra else [] }

/-! ## Metadata.ApplyPolicy -/

/-- The loop over the entity types in `Metadata.ApplyPolicy` (metadata.go:222-248). -/
def applyKnown (m : Metadata) (p : Policies) : List EType → Res (EType → Option EntityMeta)
  | [] => .ok (fun _ => none)
  | t :: ts =>
    match m.known t with
    | none => do
        let r ← applyKnown m p ts
        .ok (fun u => if u = t then none else r u)
    | some em => do
        let em' ← em.apply (p.known t)
        let r ← applyKnown m p ts
        .ok (fun u => if u = t then some em' else r u)

/-- The loop over `m.Extra` (metadata.go:250-270). For an entity type with a policy, `applyPolicy` is called with the map
value; `reflect.Value.Elem` on a non-pointer panics (metadata.go:279-280), also if the policy is empty, unless it is a nil map: then the metadata is returned as it is
(lines 276-278). -/
def applyExtra (p : AMap (Option Policy)) : AMap Val → Res (AMap Val)
  | [] => .ok []
  | (k, v) :: xs =>
    match AMap.get p k with
    | some (some _) => .error .panic
    | _ => do
        let r ← applyExtra p xs
        .ok ((k, v) :: r)

/-- `Metadata.ApplyPolicy` (metadata.go:215-273). A nil policy leaves the metadata as it is. -/
def Metadata.applyPolicy (m : Metadata) (p : Option Policies) : Res Metadata :=
  match p with
  | none => .ok m
  | some p => do
      let k ← applyKnown m p EType.all
      let x ← applyExtra p.extra (m.extra.getD [])
      .ok ⟨k, if x.isEmpty then none else some x⟩

/-! ## Merging the policies of a chain -/

/-- All entity types named in the `Extra` maps, in order of first occurrence (keys of `extraEntries`,
metadataPolicy.go:97, 108-110). -/
def extraTypes : List Policies → List String
  | [] => []
  | p :: ps => p.extra.keys ++ (extraTypes ps).filter (fun k => !p.extra.keys.contains k)

/-- `combineMetadataPolicy` (metadataPolicy.go:175-202), keeping nil and empty policies apart. -/
def combineNil (parent sub : Option Policy) : Res (Option Policy) :=
  if (sub.getD []).isEmpty then .ok parent
  else if (parent.getD []).isEmpty then .ok sub
  else (combinePolicy (parent.getD []) (sub.getD [])).map some

/-- The loop of `CombineMetadataPolicy` (metadataPolicy.go:165-170), keeping nil and empty policies apart. -/
def combineRestNil : Option Policy → List (Option Policy) → Res (Option Policy)
  | out, [] => .ok out
  | out, p :: ps => do
      let out ← combineNil out p
      combineRestNil out ps

/-- `CombineMetadataPolicy` (metadataPolicy.go:156-172), keeping nil and empty policies apart. -/
def combineAllNil : List (Option Policy) → Res (Option Policy)
  | [] => .ok none
  | p :: ps => do
      Policy.verify (p.getD [])
      combineRestNil p ps

/-- The combination loop over `extraEntries` (metadataPolicy.go:136-142). -/
def mergeExtra (ps : List Policies) : List String → Res (AMap (Option Policy))
  | [] => .ok []
  | k :: ks => do
      let c ← combineAllNil (ps.filterMap (fun p => AMap.get p.extra k))
      let r ← mergeExtra ps ks
      .ok ((k, c) :: r)

/-- The six `CombineMetadataPolicy` calls (metadataPolicy.go:112-135). -/
def mergeKnown (ps : List Policies) : List EType → Res (EType → Policy)
  | [] => .ok (fun _ => [])
  | t :: ts => do
      let c ← combineAll (ps.map (fun p => p.known t))
      let r ← mergeKnown ps ts
      .ok (fun u => if u = t then c else r u)

/-- `MergeMetadataPolicies` (metadataPolicy.go:90-152): nil policies are skipped. -/
def mergePolicies (ps : List (Option Policies)) : Res Policies := do
  let qs := ps.filterMap id
  let k ← mergeKnown qs EType.all
  let x ← mergeExtra qs (extraTypes qs)
  .ok ⟨k, x⟩

/-! ## wasSet and (de)serialisation -/

/-- `fromPointers` after decoding JSON (metadata_generated.go:75-106, 109-116): a field counts as set iff the decoded pointer
(or slice, map, pointer) is non-nil, i.e. the claim was present and not null. Input: the decoded values by tag. -/
def fromJSONFields (claims : AMap Val) : List Field → List Field × List String
  | [] => ([], [])
  | f :: fs =>
    let (fs', ws) := fromJSONFields claims fs
    match AMap.get claims f.tag with
    | some v => if v.isNilIface then ({ f with val := Val.zeroOf f.ty } :: fs', ws)
                else ({ f with val := v } :: fs', f.name :: ws)
    | none => ({ f with val := Val.zeroOf f.ty } :: fs', ws)

/-- Is the Go value a nil slice, map or pointer? Such values are encoded as msgpack nil. -/
def Val.isNilRef : Val → Bool
  | .obj none => true
  | .ptr none => true
  | .slice _ true _ => true
  | .nil => true
  | _ => false

/-- A round trip of a metadata struct through the msgpack encoding used for caching (metadata_generated.go:133-152, 382-401, 655-674, 814-833):
every exported field is encoded, scalars always as a value, so after decoding into the `…WithPtrs` struct every scalar
pointer is non-nil and `fromPointers` marks it as set; nil slices, maps and pointers stay unset. -/
def EntityMeta.viaCachePtrs (m : EntityMeta) : EntityMeta :=
  { m with wasSet := (m.fields.filter (fun f => !f.val.isNilRef)).map Field.name ++ m.extra.keys }

/-- `OAuthClientMetadata` and `OAuthAuthorizationServerMetadata` (metadata.go:362-439) define no `UnmarshalMsgpack`; the
unexported `wasSet` is neither encoded nor rebuilt, so it is empty after a cache round trip. -/
def EntityMeta.viaCachePlain (m : EntityMeta) : EntityMeta := { m with wasSet := [] }

/-- The cache round trip of `Metadata` (metadata.go:14-23 encoded field by field). -/
def Metadata.viaCache (m : Metadata) : Metadata where
  known t := match t with
    | .as | .client => (m.known t).map EntityMeta.viaCachePlain
    | _ => (m.known t).map EntityMeta.viaCachePtrs
  extra := m.extra

end Oidfed
