import Verif.Model.Jws
import Verif.Model.MetaJSON
import Verif.Model.FedEntity
/-!
# Entity statements as JSON (`entitystatement.go`, `metadataPolicy.go`, `trustmark.go`)

The payload of an entity statement with all its claims, how it is written, how it is read, and what of it the other models see
(`Stmt` in Model/Statement).

Several members can be decoded into the same field, because their names are the same or differ in upper and lower case only. Then the later one adds to what the
earlier one has left in a map or behind a pointer to a struct (`keepInto`), and replaces everything else. Simplification: the elements of a slice are decoded
into zero values, whatever was in the slice before. `[]` as a map stands for the nil and for the empty map.
-/

namespace Oidfed

/-! ## The Go values -/

/-- `TrustMarkInfo` (trustmark.go:61-66). -/
structure MarkInfo where
  type : String
  jwt : String
  extra : AMap JV

/-- `TrustMarkOwnerSpec` (entitystatement.go:217-220). -/
structure OwnerInfo where
  id : String
  jwks : Option (List JKey)

/-- `MetadataPolicy` (metadataPolicy.go:71): for each attribute the values of the operators (metadataPolicy.go:74). -/
abbrev JPolicy := AMap (AMap JV)

/-- `MetadataPolicies` (metadataPolicy.go:14-23). -/
structure JPolicies where
  known : EType → JPolicy
  extra : AMap JPolicy

/-- `EntityStatementPayload` (entitystatement.go:68-87). `none` is the nil slice or pointer. -/
structure ESPayload where
  iss : String
  sub : String
  iat : Time
  exp : Time
  jwks : Option (List JKey)
  aud : String
  hints : Option (List String)
  metadata : Option JMetadata
  policy : Option JPolicies
  constraints : Option Constraints
  crit : Option (List String)
  policyCrit : Option (List String)
  marks : Option (List MarkInfo)
  issuers : AMap (Option (List String))
  owners : AMap OwnerInfo
  source : String
  anchorID : String
  extra : AMap JV

/-! ## Writing -/

/-- The members `encoding/json` writes for a struct without `Extra`. -/
def writeFields (tags : List String) (known : String → Option JV) : JObj := tags.filterMap (fun t => (known t).map (fun v => (t, v)))

/-- A `string` with `omitempty`. -/
def omitStr (s : String) : Option JV := if s = "" then none else some (.str s)

/-- A `[]string`. -/
def strsJV : Option (List String) → JV
  | none => .null
  | some l => .arr (l.map .str)

/-- A `[]string` with `omitempty`. -/
def omitStrs : Option (List String) → Option JV
  | none => none
  | some l => if l.isEmpty then none else some (strsJV (some l))

/-- A map; `encoding/json` writes the keys in ascending order. -/
def mapJV {α : Type} (g : α → JV) (m : AMap α) : JV := .obj (sortMembers (m.map (fun kv => (kv.1, g kv.2))))

/-- Tags of `NamingConstraints` (entitystatement.go:205-208). -/
def namingTags : List String := ["permitted", "excluded"]

/-- The fields of `NamingConstraints` in JSON (entitystatement.go:205-208). -/
def namingFields (n : Naming) (t : String) : Option JV :=
  if t = "permitted" then omitStrs n.permitted else if t = "excluded" then omitStrs (some n.excluded) else none

/-- `NamingConstraints` in JSON. -/
def namingJV (n : Naming) : JV := .obj (writeFields namingTags (namingFields n))

/-- Tags of `ConstraintSpecification` (entitystatement.go:198-202). -/
def constraintTags : List String := ["max_path_length", "naming_constraints", "allowed_entity_types"]

/-- The fields of `ConstraintSpecification` in JSON (entitystatement.go:198-202). -/
def constraintFields (c : Constraints) (t : String) : Option JV :=
  if t = "max_path_length" then c.maxPath.map (fun n : Int => .num (n : Rat))
  else if t = "naming_constraints" then c.naming.map namingJV
  else if t = "allowed_entity_types" then omitStrs c.allowedTypes
  else none

/-- `ConstraintSpecification` in JSON. -/
def constraintsJV (c : Constraints) : JV := .obj (writeFields constraintTags (constraintFields c))

/-- `MetadataPolicy` in JSON. -/
def policyJV (p : JPolicy) : JV := mapJV (mapJV id) p

/-- `MetadataPolicies` as a struct for JSON; all fields have `omitempty` (metadataPolicy.go:14-23). -/
def JPolicies.struct (p : JPolicies) : JStruct where
  known := fun tag =>
    match EType.all.find? (fun t => t.tag == tag) with
    | none => none
    | some t => if (p.known t).isEmpty then none else some (policyJV (p.known t))
  extra := p.extra.map (fun kv => (kv.1, policyJV kv.2))

/-- `MetadataPolicies.MarshalJSON` (metadataPolicy.go:26-39). -/
def policiesJV (p : JPolicies) : JV := .obj (marshalObj policyTags p.struct)

/-- The fields of `Metadata` in JSON; they have `omitempty` and are pointers (metadata.go:14-23). -/
def metadataFields (m : JMetadata) (tag : String) : Option JV :=
  match EType.all.find? (fun t => t.tag == tag) with
  | none => none
  | some t => (m.known t).map (fun s => .obj (writeMeta (metaFields t) s))

/-- `Metadata.MarshalJSON` (metadata.go:187-194). -/
def metadataJV (m : JMetadata) : JV := .obj (marshalObj (EType.all.map EType.tag) ⟨metadataFields m, m.extra⟩)

/-- Tags of `TrustMarkInfo` (trustmark.go:61-66). -/
def infoTags : List String := ["trust_mark_type", "trust_mark"]

/-- The fields of `TrustMarkInfo` in JSON (trustmark.go:61-66). -/
def infoFields (i : MarkInfo) (t : String) : Option JV :=
  if t = "trust_mark_type" then some (.str i.type) else if t = "trust_mark" then some (.str i.jwt) else none

/-- `TrustMarkInfo.MarshalJSON` (trustmark.go:70-77). -/
def markInfoJV (i : MarkInfo) : JV := .obj (marshalObj infoTags ⟨infoFields i, i.extra⟩)

/-- Tags of `TrustMarkOwnerSpec` (entitystatement.go:217-220). -/
def ownerTags : List String := ["sub", "jwks"]

/-- The fields of `TrustMarkOwnerSpec` in JSON (entitystatement.go:217-220). -/
def ownerFields (K : KeyCodec) (o : OwnerInfo) (t : String) : Option JV :=
  if t = "sub" then some (.str o.id) else if t = "jwks" then some (marshalKeys K o.jwks) else none

/-- `TrustMarkOwnerSpec` in JSON. -/
def ownerJV (K : KeyCodec) (o : OwnerInfo) : JV := .obj (writeFields ownerTags (ownerFields K o))

/-- The fields of `EntityStatementPayload` as `encoding/json` writes them, and `Extra` (entitystatement.go:68-87). -/
def ESPayload.struct (K : KeyCodec) (p : ESPayload) : JStruct where
  known := fun t =>
    if t = "iss" then some (.str p.iss)
    else if t = "sub" then some (.str p.sub)
    else if t = "iat" then some (.num (marshalTime p.iat))
    else if t = "exp" then some (.num (marshalTime p.exp))
    else if t = "jwks" then some (marshalKeys K p.jwks)
    else if t = "aud" then omitStr p.aud
    else if t = "authority_hints" then omitStrs p.hints
    else if t = "metadata" then p.metadata.map metadataJV
    else if t = "metadata_policy" then p.policy.map policiesJV
    else if t = "constraints" then p.constraints.map constraintsJV
    else if t = "crit" then omitStrs p.crit
    else if t = "metadata_policy_crit" then omitStrs p.policyCrit
    else if t = "trust_marks" then (match p.marks with
      | none => none
      | some l => if l.isEmpty then none else some (.arr (l.map markInfoJV)))
    else if t = "trust_mark_issuers" then (if p.issuers.isEmpty then none else some (mapJV strsJV p.issuers))
    else if t = "trust_mark_owners" then (if p.owners.isEmpty then none else some (mapJV (ownerJV K) p.owners))
    else if t = "source_endpoint" then omitStr p.source
    else if t = "trust_anchor_id" then omitStr p.anchorID
    else none
  extra := p.extra

/-- `EntityStatementPayload.MarshalJSON` (entitystatement.go:127-134). -/
def ESPayload.write (K : KeyCodec) (p : ESPayload) : JObj := marshalObj entityStatementTags (p.struct K)

/-! ## Reading -/

/-- A `[]string`; outer `none` is an error. -/
def decStrs : JV → Option (Option (List String))
  | .null => some none
  | .arr l => (decStrings l).map some
  | _ => none

/-- Decoding the values of a map. -/
def decMembers {α : Type} (f : JV → Option α) : AMap JV → Option (AMap α)
  | [] => some []
  | (k, v) :: l =>
    match f v, decMembers f l with
    | some a, some r => some ((k, a) :: r)
    | _, _ => none

/-- Decoding a map: all values are decoded, each into a zero value, and of several members with the same name the last counts. -/
def decMap {α : Type} (f : JV → Option α) : JV → Option (AMap α)
  | .null => some []
  | .obj l => if l.all (fun kv => (f kv.2).isSome) then decMembers f (objMap l) else none
  | _ => none

/-- Decoding the elements of a slice. -/
def decList {α : Type} (f : JV → Option α) : List JV → Option (List α)
  | [] => some []
  | v :: l =>
    match f v, decList f l with
    | some a, some r => some (a :: r)
    | _, _ => none

/-- A value that is kept if it can be decoded; null is nil. Simplification: `encoding/json` decodes an array into the slice that an earlier member of the same name has
left, so that null, and members left out of an object, in the later array keep what the earlier had there; here the later array replaces the earlier. -/
def keepIf (ok : JV → Bool) : JV → Option (Option JV)
  | .null => some none
  | v => if ok v then some (some v) else none

/-- An object is decoded into what an earlier member has left: the result is what the two objects joined would give. Null is nil. -/
def keepInto (join : JObj → JObj → JObj) (ok : JV → Bool) (cur : Option JV) : JV → Option (Option JV)
  | .null => some none
  | .obj l' =>
    match cur with
    | some (.obj l) => if ok (.obj (join l l')) then some (some (.obj (join l l'))) else none
    | _ => if ok (.obj l') then some (some (.obj l')) else none
  | v => if ok v then some (some v) else none

/-- Members of the first object for the fields stay, its additional members do not: `Extra` is set from the second object. -/
def joinKnown (tags : List String) (l l' : JObj) : JObj := l.filterMap (fun kv => (fieldFor tags kv.1).map (fun t => (t, kv.2))) ++ l'

/-- A decoded `[]string` field. -/
def strsOf : Option JV → Option (List String)
  | none => none
  | some v => (decStrs v).getD none

/-- `NamingConstraints` (entitystatement.go:205-208). -/
def decNaming : JV → Option Naming
  | .obj l => (decodeKnown namingTags (fun _ _ v => keepIf (fun v => (decStrs v).isSome) v) l (fun _ => none)).map (fun f =>
      ⟨strsOf (f "permitted"), (strsOf (f "excluded")).getD []⟩)
  | _ => none

/-- An `int` (64 bits). -/
def decInt : JV → Option Int
  | .num q => if q.den = 1 ∧ minDuration ≤ q.num ∧ q.num ≤ maxDuration then some q.num else none
  | _ => none

/-- Decoding of the fields of `ConstraintSpecification`: a pointer to an int, a pointer to a struct, a slice. -/
def constraintDec : FieldDec := fun t cur v =>
  if t = "max_path_length" then keepIf (fun v => (decInt v).isSome) v
  else if t = "naming_constraints" then keepInto (· ++ ·) (fun v => (decNaming v).isSome) cur v
  else keepIf (fun v => (decStrs v).isSome) v

/-- `ConstraintSpecification` (entitystatement.go:198-202). -/
def decConstraints : JV → Option Constraints
  | .obj l => (decodeKnown constraintTags constraintDec l (fun _ => none)).map (fun f =>
      ⟨(f "max_path_length").bind decInt, (f "naming_constraints").bind decNaming, strsOf (f "allowed_entity_types")⟩)
  | _ => none

/-- `MetadataPolicy`: a map of maps. -/
def decPolicy : JV → Option JPolicy := decMap (decMap some)

/-- `MetadataPolicies.UnmarshalJSON` (metadataPolicy.go:43-67), which fails if there are additional members (see `unmarshalPolicies`). -/
def decPolicies : JV → Option JPolicies
  | .obj l => (unmarshalPolicies (fun _ cur v => keepInto (· ++ ·) (fun v => (decPolicy v).isSome) cur v) l).map (fun o =>
      ⟨fun t => ((o.known t.tag).bind decPolicy).getD [], []⟩)
  | _ => none

/-- `Metadata` (metadata.go:198-208). -/
def decMetadata (opq : Opaque) : JV → Option JMetadata
  | .obj l => readMetadata opq l
  | _ => none

/-- `TrustMarkInfo.UnmarshalJSON` (trustmark.go:97-107); for null, `unmarshalWithExtra` leaves the zero value. -/
def decInfo : JV → Option MarkInfo
  | .null => some ⟨"", "", []⟩
  | .obj l => (unmarshalObj infoTags (fun _ cur v => decString cur v) l).map (fun o => ⟨strOf (o.known "trust_mark_type"), strOf (o.known "trust_mark"), o.extra⟩)
  | _ => none

/-- `TrustMarkInfos`. -/
def decInfos : JV → Option (List MarkInfo)
  | .arr l => decList decInfo l
  | _ => none

/-- Decoding of the fields of `TrustMarkOwnerSpec`. -/
def ownerDec (K : KeyCodec) : FieldDec := fun t cur v =>
  if t = "jwks" then keepIf (fun v => (unmarshalKeys K v).isSome) v else decString cur v

/-- `TrustMarkOwnerSpec.UnmarshalJSON` (entitystatement.go:223-231). -/
def decOwner (K : KeyCodec) : JV → Option OwnerInfo
  | .null => some ⟨"", none⟩
  | .obj l => (decodeKnown ownerTags (ownerDec K) l (fun _ => none)).map (fun f =>
      ⟨strOf (f "sub"), (f "jwks").bind (fun v => (unmarshalKeys K v).getD none)⟩)
  | _ => none

/-- Decoding of the fields of `EntityStatementPayload`: strings, times (for which null counts as 0), and types that can be nil. -/
def stmtDec (K : KeyCodec) (opq : Opaque) : FieldDec := fun t cur v =>
  if t = "iat" ∨ t = "exp" then
    match v with
    | .num q => some (some (.num q))
    | .null => some (some (.num 0))
    | _ => none
  else if t = "jwks" then keepIf (fun v => (unmarshalKeys K v).isSome) v
  else if t = "authority_hints" ∨ t = "crit" ∨ t = "metadata_policy_crit" then keepIf (fun v => (decStrs v).isSome) v
  else if t = "metadata" then keepInto (joinKnown (EType.all.map EType.tag)) (fun v => (decMetadata opq v).isSome) cur v
  else if t = "metadata_policy" then keepInto (joinKnown policyTags) (fun v => (decPolicies v).isSome) cur v
  else if t = "constraints" then keepInto (· ++ ·) (fun v => (decConstraints v).isSome) cur v
  else if t = "trust_marks" then keepIf (fun v => (decInfos v).isSome) v
  else if t = "trust_mark_issuers" then keepInto (· ++ ·) (fun v => (decMap decStrs v).isSome) cur v
  else if t = "trust_mark_owners" then keepInto (· ++ ·) (fun v => (decMap (decOwner K) v).isSome) cur v
  else decString cur v

/-- The decoded fields. -/
def ESPayload.ofStruct (K : KeyCodec) (opq : Opaque) (o : JStruct) : ESPayload where
  iss := strOf (o.known "iss")
  sub := strOf (o.known "sub")
  iat := timeOf (o.known "iat")
  exp := timeOf (o.known "exp")
  jwks := (o.known "jwks").bind (fun v => (unmarshalKeys K v).getD none)
  aud := strOf (o.known "aud")
  hints := strsOf (o.known "authority_hints")
  metadata := (o.known "metadata").bind (decMetadata opq)
  policy := (o.known "metadata_policy").bind decPolicies
  constraints := (o.known "constraints").bind decConstraints
  crit := strsOf (o.known "crit")
  policyCrit := strsOf (o.known "metadata_policy_crit")
  marks := (o.known "trust_marks").bind decInfos
  issuers := ((o.known "trust_mark_issuers").bind (decMap decStrs)).getD []
  owners := ((o.known "trust_mark_owners").bind (decMap (decOwner K))).getD []
  source := strOf (o.known "source_endpoint")
  anchorID := strOf (o.known "trust_anchor_id")
  extra := o.extra

/-- `EntityStatementPayload.UnmarshalJSON` into a zero struct (entitystatement.go:174-184). -/
def ESPayload.read (K : KeyCodec) (opq : Opaque) (l : JObj) : Option ESPayload :=
  (unmarshalObj entityStatementTags (stmtDec K opq) l).map (ESPayload.ofStruct K opq)

/-! ## What the other models see -/

/-- Numbers for keys, for JSON objects in policies, and for maps and key sets in metadata. -/
structure Numbering where
  key : JKey → Nat
  obj : JV → Nat

/-- A JSON value as decoded into `any`; numbers become the nearest `float64`. -/
def JV.toVal (N : Numbering) : JV → Val
  | .null => .nil
  | .bool b => .bool b
  | .num q => .num (float64 q)
  | .str s => .str s
  | .arr l => .slice .any false (l.attach.map (fun x => x.1.toVal N))
  | .obj l => .obj (some (N.obj (.obj l)))
termination_by v => sizeOf v
decreasing_by
  have := List.sizeOf_lt_of_mem x.2
  simp_wf
  omega

/-- A policy as the policy model has it. -/
def JPolicy.toPolicy (N : Numbering) (p : JPolicy) : Policy := p.map (fun ae => (ae.1, ae.2.map (fun ov => (ov.1, ov.2.toVal N))))

/-- Policies as the policy model has them. -/
def JPolicies.toPolicies (N : Numbering) (p : JPolicies) : Policies where
  known := fun t => (p.known t).toPolicy N
  extra := p.extra.map (fun kv => (kv.1, some (JPolicy.toPolicy N kv.2)))

/-- The struct a policy is applied to (metadata.go:275-314). In Go the field `Extra` is not the last one, which only matters for which of several failures is
reported. -/
def MStruct.toMeta (N : Numbering) (S : List MField) (m : MStruct) : EntityMeta where
  fields := S.map (fun f => ⟨f.name, f.tag, f.kind.ty, f.kind.goVal N.obj (m.val f.name)⟩) ++ [extraField N.obj m]
  wasSet := m.wasSet
  extra := m.extra.map (fun kv => (kv.1, kv.2.toVal N))

/-- Metadata as the metadata model has it; an empty `Extra` is nil after reading (entitystatement.go:149-151). -/
def JMetadata.toMetadata (N : Numbering) (m : JMetadata) : Metadata where
  known := fun t => (m.known t).map (MStruct.toMeta N (metaFields t))
  extra := if m.extra.isEmpty then none else some (m.extra.map (fun kv => (kv.1, kv.2.toVal N)))

/-- The claims of a statement the library acts on. -/
def ESPayload.toStmt (N : Numbering) (p : ESPayload) (raw : Option Nat) : Stmt where
  iss := p.iss
  sub := p.sub
  iat := p.iat
  exp := p.exp
  jwks := p.jwks.map (fun ks => ks.map N.key)
  hints := p.hints.getD []
  metadata := p.metadata.map (JMetadata.toMetadata N)
  policy := p.policy.map (JPolicies.toPolicies N)
  policyCrit := p.policyCrit.getD []
  crit := p.crit.getD []
  constraints := p.constraints
  raw := raw

/-- The decoding of the payload in `ParseEntityStatement` (entitystatement.go:253-260), the message being kept under its number. -/
def decodeStmt (K : KeyCodec) (opq : Opaque) (N : Numbering) (num : Jws → Nat) (j : Jws) : Option Stmt :=
  (ESPayload.read K opq j.payload).map (fun p => p.toStmt N (some (num j)))

/-! ## The own entity configuration -/

/-- `FederationEntity` (federation.go:20-31) with its Go values (in Model/FedEntity they are JSON values). -/
structure FedConfig where
  id : ID
  metadata : Option JMetadata
  hints : Option (List String)
  lifetime : Int
  keys : Option (List JKey)
  marks : List OwnMark
  issuers : AMap (Option (List String))
  owners : AMap OwnerInfo
  extra : AMap JV

/-- `NewFederationEntity` (federation.go:42-58): the keys are those of the signer. -/
def newFedConfig (C : Crypto) (id : ID) (hints : Option (List String)) (metadata : Option JMetadata) (S : JSigner) (lifetime : Int) (extra : AMap JV) :
    Res FedConfig :=
  match S.jwks C with
  | .error e => .error e
  | .ok ks => .ok ⟨id, metadata, hints, if lifetime ≤ 0 then defaultLifetime else lifetime, some ks, [], [], [], extra⟩

/-- `EntityConfigurationPayload` (federation.go:80-109). -/
def FedConfig.payload (f : FedConfig) (now : Time) (ans : Nat → Option String) : ESPayload where
  iss := f.id
  sub := f.id
  iat := now
  exp := (now : Int) + wrap64 (second * f.lifetime)
  jwks := f.keys
  aud := ""
  hints := f.hints
  metadata := f.metadata
  policy := none
  constraints := none
  crit := none
  policyCrit := none
  marks := (match publishedMarks now ans 0 f.marks with
    | [] => none
    | l => some (l.map (fun m => ⟨m.1, m.2, []⟩)))
  issuers := f.issuers
  owners := f.owners
  source := ""
  anchorID := ""
  extra := f.extra

/-- `EntityConfigurationJWT` (federation.go:113-115). -/
def FedConfig.jwt (C : Crypto) (K : KeyCodec) (S : JSigner) (f : FedConfig) (now : Time) (ans : Nat → Option String) : Res Jws :=
  signAs C S .entityStatement (some ((f.payload now ans).write K))

/-- `SignEntityStatement` (federation.go:119-121). -/
def signStatement (C : Crypto) (K : KeyCodec) (S : JSigner) (p : ESPayload) : Res Jws := signAs C S .entityStatement (some (p.write K))

/-- The same entity in Model/FedEntity. -/
def FedConfig.toEntity (K : KeyCodec) (f : FedConfig) : FedEntity where
  id := f.id
  lifetime := f.lifetime
  marks := f.marks
  jwks := marshalKeys K f.keys
  hints := omitStrs f.hints
  metadata := f.metadata.map metadataJV
  issuers := if f.issuers.isEmpty then none else some (mapJV strsJV f.issuers)
  owners := if f.owners.isEmpty then none else some (mapJV (ownerJV K) f.owners)
  extra := f.extra

end Oidfed
