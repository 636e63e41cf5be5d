import Verif.Lemmas.StmtJSON
import Verif.Spec.Federation
/-!
# Properties of entity statements as JSON: C110
-/

namespace Oidfed
open Spec

/-- What is decoded for each field. -/
def ESPayload.decoded (K : KeyCodec) (p : ESPayload) (t : String) : Option JV := if t = "jwks" then keysField K p.jwks else (p.struct K).known t

theorem stmt_fields (K : KeyCodec) (hK : CodecOk K) (opq : Opaque) (hq : ∀ v w, opq .map v = some w → ∃ l, w = .obj l) (p : ESPayload)
    (hp : PayloadOk opq p) (t : String) (ht : t ∈ entityStatementTags) (v : JV)
    (hv : (p.struct K).known t = some v) : stmtDec K opq t none v = some (p.decoded K t) := by
  simp only [entityStatementTags, List.mem_cons, List.not_mem_nil, or_false] at ht
  have plain : t ≠ "jwks" → stmtDec K opq t none v = some (some v) → stmtDec K opq t none v = some (p.decoded K t) := by
    intro h1 h2
    rw [h2]
    unfold ESPayload.decoded
    rw [if_neg h1, hv]
  rcases ht with rfl | rfl | rfl | rfl | rfl | rfl | rfl | rfl | rfl | rfl | rfl | rfl | rfl | rfl | rfl | rfl | rfl
  · apply plain (by decide); cases hv; rfl
  · apply plain (by decide); cases hv; rfl
  · apply plain (by decide); cases hv; rfl
  · apply plain (by decide); cases hv; rfl
  · cases (show some (marshalKeys K p.jwks) = some v from hv)
    exact keep_keys hK _
  · apply plain (by decide)
    exact keep_omitStr (s := p.aud) hv
  · apply plain (by decide)
    exact keep_omitStrs (l := p.hints) hv
  · apply plain (by decide)
    obtain ⟨m, hm, rfl⟩ := Option.map_eq_some_iff.mp (show p.metadata.map metadataJV = some v from hv)
    obtain ⟨m', h1, _⟩ := decMetadata_metadata opq hq m (hp.metadata m hm).1 (hp.metadata m hm).2
    exact keepInto_some (join := joinKnown (EType.all.map EType.tag)) (ok := fun v => (decMetadata opq v).isSome) (v := metadataJV m) (by simp [metadataJV]) (by simp only [h1]; rfl)
  · apply plain (by decide)
    obtain ⟨m, hm, rfl⟩ := Option.map_eq_some_iff.mp (show p.policy.map policiesJV = some v from hv)
    obtain ⟨m', h1, _⟩ := decPolicies_policies m (hp.policy m hm).1 (hp.policy m hm).2
    exact keepInto_some (join := joinKnown policyTags) (ok := fun v => (decPolicies v).isSome) (v := policiesJV m) (by simp [policiesJV]) (by simp only [h1]; rfl)
  · apply plain (by decide)
    obtain ⟨c, hc, rfl⟩ := Option.map_eq_some_iff.mp (show p.constraints.map constraintsJV = some v from hv)
    exact keepInto_some (join := (· ++ ·)) (ok := fun v => (decConstraints v).isSome) (v := constraintsJV c) (by simp [constraintsJV]) (by simp only [decConstraints_constraints c (fun n => hp.maxPath c n hc)]; rfl)
  · apply plain (by decide)
    exact keep_omitStrs (l := p.crit) hv
  · apply plain (by decide)
    exact keep_omitStrs (l := p.policyCrit) hv
  · apply plain (by decide)
    have hv' : (match p.marks with
      | none => none
      | some l => if l.isEmpty then none else some (JV.arr (l.map markInfoJV))) = some v := hv
    cases hm : p.marks with
    | none => rw [hm] at hv'; cases hv'
    | some l =>
      rw [hm] at hv'
      simp only at hv'
      split at hv'
      · cases hv'
      · cases hv'
        obtain ⟨r, h1, _⟩ := list_roundtrip (R := SameInfo) (f := decInfo) (g := markInfoJV) (l := l)
          (fun i hi => decInfo_info i (hp.marks i (by rw [hm]; exact hi)))
        exact keepIf_some (ok := fun v => (decInfos v).isSome) (v := .arr (l.map markInfoJV)) (by simp) (by simp only [decInfos, h1]; rfl)
  · apply plain (by decide)
    have hv' : (if p.issuers.isEmpty then none else some (mapJV strsJV p.issuers)) = some v := hv
    split at hv'
    · cases hv'
    · cases hv'
      obtain ⟨r, h1, _⟩ := map_roundtrip (R := Eq) (f := decStrs) (g := strsJV) hp.issuers (fun kv _ => ⟨kv.2, decStrs_strs _, rfl⟩)
      exact keepInto_some (join := (· ++ ·)) (ok := fun v => (decMap decStrs v).isSome) (v := mapJV strsJV p.issuers) (mapJV_ne _ _) (by simp only [h1]; rfl)
  · apply plain (by decide)
    have hv' : (if p.owners.isEmpty then none else some (mapJV (ownerJV K) p.owners)) = some v := hv
    split at hv'
    · cases hv'
    · cases hv'
      obtain ⟨r, h1, _⟩ := map_roundtrip (R := SameOwner) (f := decOwner K) (g := ownerJV K) hp.owners (fun kv _ => decOwner_owner hK kv.2)
      exact keepInto_some (join := (· ++ ·)) (ok := fun v => (decMap (decOwner K) v).isSome) (v := mapJV (ownerJV K) p.owners) (mapJV_ne _ _) (by simp only [h1]; rfl)
  · apply plain (by decide)
    exact keep_omitStr (s := p.source) hv
  · apply plain (by decide)
    exact keep_omitStr (s := p.anchorID) hv

/-- What is read back says the same except for empty lists in the constraints. -/
theorem stmt_roundtrip (K : KeyCodec) (hK : CodecOk K) (opq : Opaque) (hq : ∀ v w, opq .map v = some w → ∃ l, w = .obj l) (p : ESPayload)
    (hp : PayloadOk opq p) :
    ∃ q, ESPayload.read K opq (p.write K) = some q ∧ SameClaims p.asWritten q ∧
      ∀ m, q.metadata = some m → m.Fresh opq := by
  obtain ⟨e, h1, h2⟩ := obj_roundtrip_as (tags := entityStatementTags) (by decide) (dec := stmtDec K opq) (o := p.struct K) hp.extra (g := p.decoded K)
    (fun t ht v hv => stmt_fields K hK opq hq p hp t ht v hv)
    (by
      intro t ht
      have hnone : (p.struct K).known t = none := by
        rcases ht with ht | ht
        · simp only [entityStatementTags, List.mem_cons, List.not_mem_nil, or_false, not_or] at ht
          simp only [ESPayload.struct]
          simp only [ht, if_false]
        · exact ht
      unfold ESPayload.decoded
      split
      · rename_i e; subst e; cases hnone
      · exact hnone)
  refine ⟨ESPayload.ofStruct K opq ⟨p.decoded K, e⟩, ?_, ?_, ?_⟩
  · unfold ESPayload.read ESPayload.write
    rw [h1]
    rfl
  · constructor
    case iss => rfl
    case sub => rfl
    case iat => exact timeOf_marshal p.iat hp.iat
    case exp => exact timeOf_marshal p.exp hp.exp
    case keys => exact keysField_read hK p.jwks
    case aud => exact strOf_omit p.aud
    case hints => exact sameElems_omit p.hints
    case metadata =>
      show Option.Rel SameMetadata p.metadata ((p.metadata.map metadataJV).bind (decMetadata opq))
      cases hm : p.metadata with
      | none => exact .none
      | some m =>
        obtain ⟨m', h3, h4, _⟩ := decMetadata_metadata opq hq m (hp.metadata m hm).1 (hp.metadata m hm).2
        rw [Option.map_some, Option.bind_some, h3]
        exact .some h4
    case policy =>
      show Option.Rel _ p.policy ((p.policy.map policiesJV).bind decPolicies)
      cases hm : p.policy with
      | none => exact .none
      | some m =>
        obtain ⟨m', h3, h4⟩ := decPolicies_policies m (hp.policy m hm).1 (hp.policy m hm).2
        rw [Option.map_some, Option.bind_some, h3]
        exact .some h4
    case constraints =>
      show (p.constraints.map constraintsJV).bind decConstraints = p.constraints.map Constraints.strip
      cases hc : p.constraints with
      | none => rfl
      | some c => rw [Option.map_some, Option.bind_some, decConstraints_constraints c (fun n => hp.maxPath c n hc)]; rfl
    case crit => exact sameElems_omit p.crit
    case policyCrit => exact sameElems_omit p.policyCrit
    case marks =>
      show SameList SameInfo (p.marks.getD []) (((match p.marks with
        | none => none
        | some l => if l.isEmpty then none else some (JV.arr (l.map markInfoJV))).bind decInfos).getD [])
      cases hm : p.marks with
      | none => exact fun n => by simp only [Option.getD_none, Option.bind_none, List.getElem?_nil]; exact .none
      | some l =>
        simp only
        split
        · rename_i hl
          rw [List.isEmpty_iff.mp hl]
          exact fun n => by simp only [Option.getD_some, Option.bind_none, Option.getD_none, List.getElem?_nil]; exact .none
        · obtain ⟨r, h1, h3⟩ := list_roundtrip (R := SameInfo) (f := decInfo) (g := markInfoJV) (l := l)
            (fun i hi => decInfo_info i (hp.marks i (by rw [hm]; exact hi)))
          simp only [Option.bind_some, decInfos, h1, Option.getD_some]
          exact h3
    case issuers =>
      show SameMap Eq p.issuers (((if p.issuers.isEmpty then none else some (mapJV strsJV p.issuers)).bind (decMap decStrs)).getD [])
      split
      · rename_i hi
        rw [List.isEmpty_iff.mp hi]
        exact fun _ => .none
      · obtain ⟨r, h1, h3⟩ := map_roundtrip (R := Eq) (f := decStrs) (g := strsJV) hp.issuers (fun kv _ => ⟨kv.2, decStrs_strs _, rfl⟩)
        rw [Option.bind_some, h1]
        exact h3
    case owners =>
      show SameMap SameOwner p.owners (((if p.owners.isEmpty then none else some (mapJV (ownerJV K) p.owners)).bind (decMap (decOwner K))).getD [])
      split
      · rename_i hi
        rw [List.isEmpty_iff.mp hi]
        exact fun _ => .none
      · obtain ⟨r, h1, h3⟩ := map_roundtrip (R := SameOwner) (f := decOwner K) (g := ownerJV K) hp.owners (fun kv _ => decOwner_owner hK kv.2)
        rw [Option.bind_some, h1]
        exact h3
    case source => exact strOf_omit p.source
    case anchorID => exact strOf_omit p.anchorID
    case extra => exact sameMap_eq.mpr h2
  · intro m' hm'
    have hm2 : (p.metadata.map metadataJV).bind (decMetadata opq) = some m' := hm'
    cases hm : p.metadata with
    | none => rw [hm] at hm2; cases hm2
    | some m =>
      obtain ⟨m'', h3, _, h4⟩ := decMetadata_metadata opq hq m (hp.metadata m hm).1 (hp.metadata m hm).2
      rw [hm, Option.map_some, Option.bind_some, h3] at hm2
      cases hm2
      exact h4

/-- Without empty lists in the constraints nothing is left out. -/
theorem asWritten_same {p : ESPayload} (hl : ∀ c, p.constraints = some c → NoEmptyLists c) : p.asWritten = p := by
  have : p.constraints.map Constraints.strip = p.constraints := by
    cases hc : p.constraints with
    | none => rfl
    | some c => rw [Option.map_some, strip_same (hl c hc)]
  unfold ESPayload.asWritten
  rw [this]

/-- Without empty lists in the constraints it says the same. -/
theorem stmt_roundtrip_lists (K : KeyCodec) (hK : CodecOk K) (opq : Opaque) (hq : ∀ v w, opq .map v = some w → ∃ l, w = .obj l) (p : ESPayload)
    (hp : PayloadOk opq p) (hl : ∀ c, p.constraints = some c → NoEmptyLists c) :
    ∃ q, ESPayload.read K opq (p.write K) = some q ∧ SameClaims p q ∧ ∀ m, q.metadata = some m → m.Fresh opq := by
  obtain ⟨q, h1, h2, h3⟩ := stmt_roundtrip K hK opq hq p hp
  refine ⟨q, h1, ?_, h3⟩
  rw [asWritten_same hl] at h2
  exact h2

/-- **C110** (part): a statement a program made and the library wrote is read back, and says the same. The claim without the assumption about empty lists
is refuted below; the assumption that additional claims keep apart from the others is needed (C52). -/
theorem C110_roundtrip_partial (K : KeyCodec) (hK : CodecOk K) (opq : Opaque) (hq : ∀ v w, opq .map v = some w → ∃ l, w = .obj l) (p : ESPayload)
    (hp : PayloadOk opq p) (hl : ∀ c, p.constraints = some c → NoEmptyLists c) :
    ∃ q, ESPayload.read K opq (p.write K) = some q ∧ SameClaims p q := by
  obtain ⟨q, h1, h2, _⟩ := stmt_roundtrip_lists K hK opq hq p hp hl
  exact ⟨q, h1, h2⟩

/-- **C110** (part): with any constraints, a statement a program made and the library wrote is read back, and says what the payload says without the empty lists in its
constraints. -/
theorem C110_as_written_partial (K : KeyCodec) (hK : CodecOk K) (opq : Opaque) (hq : ∀ v w, opq .map v = some w → ∃ l, w = .obj l) (p : ESPayload)
    (hp : PayloadOk opq p) : ∃ q, ESPayload.read K opq (p.write K) = some q ∧ SameClaims p.asWritten q := by
  obtain ⟨q, h1, h2, _⟩ := stmt_roundtrip K hK opq hq p hp
  exact ⟨q, h1, h2⟩

/-- **C110** refuted: an authority that permits no name at all (an empty list of permitted names) writes a statement that permits every name: what is read
from it has no list of permitted names. -/
theorem C110_empty_permitted_refuted (K : KeyCodec) (hK : CodecOk K) (opq : Opaque) (hq : ∀ v w, opq .map v = some w → ∃ l, w = .obj l) (p : ESPayload)
    (hp : PayloadOk opq p) (c : Constraints) (n : Naming) (hc : p.constraints = some c) (hn : c.naming = some n) (hperm : n.permitted = some []) :
    (∀ host id, ¬ NamingOk host c id) ∧
    ∃ q c', ESPayload.read K opq (p.write K) = some q ∧ q.constraints = some c' ∧
      ∀ host id, (∀ x ∈ n.excluded, ¬ HostMatches host x id) → NamingOk host c' id := by
  refine ⟨?_, ?_⟩
  · intro host id h
    obtain ⟨x, hx, _⟩ := (h n hn).2 [] hperm
    cases hx
  · obtain ⟨q, h1, h2, _⟩ := stmt_roundtrip K hK opq hq p hp
    refine ⟨q, c.strip, h1, ?_, ?_⟩
    · rw [h2.constraints]
      show p.constraints.map Constraints.strip = _
      rw [hc]; rfl
    · intro host id hx n' hn'
      simp only [Constraints.strip, hn, Option.map_some, Option.some.injEq] at hn'
      subst hn'
      refine ⟨hx, ?_⟩
      intro ps hps
      simp only [Naming.strip, noEmpty, hperm, if_true] at hps
      cases hps

/-- **C110** refuted: an authority that allows no entity types besides `federation_entity` (an empty list of allowed types) writes a statement that allows all types. -/
theorem C110_empty_types_refuted (K : KeyCodec) (hK : CodecOk K) (opq : Opaque) (hq : ∀ v w, opq .map v = some w → ∃ l, w = .obj l) (p : ESPayload)
    (hp : PayloadOk opq p) (c : Constraints) (hc : p.constraints = some c) (ht : c.allowedTypes = some []) :
    (∀ ty, TypeOk c ty → ty = "federation_entity") ∧
    ∃ q c', ESPayload.read K opq (p.write K) = some q ∧ q.constraints = some c' ∧ ∀ ty, TypeOk c' ty := by
  refine ⟨?_, ?_⟩
  · intro ty h
    rcases h [] ht with h | h
    · cases h
    · exact h
  · obtain ⟨q, h1, h2, _⟩ := stmt_roundtrip K hK opq hq p hp
    refine ⟨q, c.strip, h1, ?_, ?_⟩
    · rw [h2.constraints]
      show p.constraints.map Constraints.strip = _
      rw [hc]; rfl
    · intro ty ts hts
      simp only [Constraints.strip, noEmpty, ht, if_true] at hts
      cases hts

/-! ## Cases that meet the hypotheses -/

namespace ExS

/-- A JSON form of keys. -/
def codec : KeyCodec := ⟨fun k => .arr [.num k.key, match k.kid with | none => .null | some s => .str s, match k.use with | none => .null | some s => .str s,
      match k.alg with | none => .null | some s => .str s],
    fun v => match v with
      | .arr [.num q, a, b, c] =>
        let r : JV → Option String := fun x => match x with | .str s => some s | _ => none
        some ⟨r a, r b, r c, q.num.toNat⟩
      | _ => none⟩

theorem codec_ok : CodecOk codec := by
  rintro ⟨kid, use, alg, key⟩
  cases kid <;> cases use <;> cases alg <;> simp [codec]

/-- Maps and key sets are kept as they are. -/
def opq : Opaque := fun _ v => match v with | .obj l => some (.obj l) | _ => none

theorem opq_map : ∀ v w, opq .map v = some w → ∃ l, w = .obj l := by
  intro v w h
  cases v <;> simp [opq] at h
  subst h; simp

/-- Metadata of a federation entity with the given fetch endpoint and a name. -/
def fed (ep : String) : MStruct where
  val := fun n => if n = "FederationFetchEndpoint" then some (.str ep) else if n = "Keywords" ∨ n = "Contacts" then none else some (.str (if n = "OrganizationName" then "Other" else ""))
  wasSet := ["FederationFetchEndpoint", "OrganizationName"]
  extra := [("shoe_size", .num 44)]

theorem fed_ok (ep : String) : MetaOk opq .fed (fed ep) where
  extra := ⟨by simp [fed, AMap.WF, AMap.keys], show ∀ k ∈ ["shoe_size"], ∀ t ∈ fedFields.map MField.tag, foldName t ≠ foldName k by decide⟩
  typed := by
    intro f hf w hw
    have hk : ∀ f ∈ metaFields .fed, f.kind = .str ∨ f.name = "Keywords" ∨ f.name = "Contacts" := by decide
    have hn : ∀ f ∈ metaFields .fed, f.name = "FederationFetchEndpoint" → f.kind = .str := by decide
    simp only [fed] at hw
    split at hw
    · rename_i h
      rw [hn f hf h]
      cases hw; rfl
    · split at hw
      · cases hw
      · rename_i h
        rcases hk f hf with h1 | h1
        · rw [h1]; cases hw; rfl
        · exact absurd h1 h
  nonnil := by
    intro f hf hv
    have hk : ∀ f ∈ metaFields .fed, f.name = "Keywords" ∨ f.name = "Contacts" → f.kind = .strs := by decide
    simp only [fed] at hv
    split at hv
    · cases hv
    · split at hv
      · rename_i h
        rw [hk f hf h]; rfl
      · cases hv

/-- A key. -/
def key : JKey := ⟨some "k", some "sig", some "ES512", 7⟩

/-- A statement with all kinds of claims, and the given constraints. -/
def payload (c : Constraints) : ESPayload where
  iss := "https://ta.example"
  sub := "https://ia.example"
  iat := 1700000000123456789
  exp := 1700086400123456789
  jwks := some [key]
  aud := ""
  hints := some ["https://ta.example"]
  metadata := some ⟨fun t => match t with | .fed => some (fed "https://ia.example/fetch") | _ => none, [("wallet", .obj [("a", .str "b")])]⟩
  policy := some ⟨fun t => match t with
    | .rp => [("scope", [("essential", .bool true)])]
    | .fed => [("organization_name", [("default", .str "Org"), ("one_of", .arr [.str "Org", .str "Other"]), ("essential", .bool true)])]
    | _ => [], []⟩
  constraints := some c
  crit := some ["jti"]
  policyCrit := none
  marks := some [⟨"https://tm.example", "ey", []⟩]
  issuers := [("https://tm.example", some ["https://ta.example"])]
  owners := [("https://tm.example", ⟨"https://own.example", some [key]⟩)]
  source := "https://ta.example/fetch"
  anchorID := ""
  extra := [("jti", .str "17")]

theorem payload_ok (c : Constraints) (hc : c.maxPath = some 1 ∨ c.maxPath = none) : PayloadOk opq (payload c) where
  iat := by show |(1700000000123456789 : Int)| ≤ 2 ^ 62; decide
  exp := by show |(1700086400123456789 : Int)| ≤ 2 ^ 62; decide
  maxPath := by
    intro c' n h1 h2
    cases h1
    rcases hc with h | h
    · rw [h] at h2; cases h2; decide
    · rw [h] at h2; cases h2
  metadata := by
    intro m h
    cases h
    refine ⟨⟨by simp [AMap.WF, AMap.keys], by unfold Apart; decide⟩, ?_⟩
    intro t s hs
    cases t <;> first | (cases hs; exact fed_ok _) | cases hs
  policy := by
    intro q h
    cases h
    refine ⟨rfl, ?_⟩
    intro t
    cases t <;> simp [AMap.WF, AMap.keys]
  marks := by
    intro i hi
    simp only [payload, Option.getD_some, List.mem_singleton] at hi
    subst hi
    exact ⟨by simp [AMap.WF, AMap.keys], by intro k hk; cases hk⟩
  issuers := by simp [payload, AMap.WF, AMap.keys]
  owners := by simp [payload, AMap.WF, AMap.keys]
  extra := ⟨by simp [payload, AMap.WF, AMap.keys], show ∀ k ∈ ["jti"], ∀ t ∈ entityStatementTags, foldName t ≠ foldName k by decide⟩

/-- A statement with policies, metadata, constraints, trust marks and additional claims is read as it was made. -/
example : ∃ q, ESPayload.read codec opq ((payload ⟨some 1, some ⟨some [".example"], ["bad.example"]⟩, some ["openid_provider"]⟩).write codec) = some q ∧
    SameClaims (payload ⟨some 1, some ⟨some [".example"], ["bad.example"]⟩, some ["openid_provider"]⟩) q :=
  C110_roundtrip_partial codec codec_ok opq opq_map _ (payload_ok _ (.inl rfl)) (by
    intro c hc
    cases hc
    exact ⟨by simp, by intro n hn; cases hn; simp⟩)

/-- Nothing is permitted, and after reading everything is. -/
example := C110_empty_permitted_refuted codec codec_ok opq opq_map (payload ⟨none, some ⟨some [], []⟩, none⟩) (payload_ok _ (.inr rfl)) _ _ rfl rfl rfl

/-- No types are allowed, and after reading all are. -/
example := C110_empty_types_refuted codec codec_ok opq opq_map (payload ⟨none, none, some []⟩) (payload_ok _ (.inr rfl)) _ rfl rfl

end ExS

end Oidfed
