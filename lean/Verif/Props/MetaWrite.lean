import Verif.Props.MetaJSON
/-!
# Properties of metadata as JSON: C90, C91
-/

namespace Oidfed
open Spec

theorem objMap_filter_wf (l : JObj) (p : String × JV → Bool) : AMap.WF ((objMap l).filter p) := by
  have := objMap_nodup l
  unfold AMap.WF AMap.keys
  exact this.sublist (List.filter_sublist.map _)

theorem write_get {S : List MField} (ok : TableOk S) {m : MStruct} (he : m.extra.WF) (k : String) :
    AMap.get (writeMeta S m) k = (AMap.get m.extra k).or
      (match S.find? (fun f => f.tag == k) with
       | none => none
       | some f => writeField f (m.val f.name)) := by
  unfold writeMeta
  rw [marshalObj_get ok.tags he]
  congr 1
  split
  · rfl
  · rename_i hk
    cases hf : S.find? (fun f => f.tag == k) with
    | none => rfl
    | some f =>
      exfalso
      apply hk
      have := List.find?_some hf
      simp only [beq_iff_eq] at this
      rw [← this]
      exact List.mem_map.mpr ⟨f, List.mem_of_find?_eq_some hf, rfl⟩

theorem read_extra_get {S : List MField} {l : JObj} (hu : UniqueNames l) {e : AMap JV}
    (he : e = (objMap l).filter (fun kv => !((S.map MField.tag).contains kv.1))) (k : String) :
    AMap.get e k = if k ∈ S.map MField.tag then none else AMap.get l k := by
  rw [he, jget_filter (p := fun k => !((S.map MField.tag).contains k)), objMap_get, lastMember_nodup hu]
  by_cases hk : k ∈ S.map MField.tag
  · simp [hk]
  · simp only [List.contains_eq_mem, hk, decide_false, Bool.not_false, if_true, if_false]

theorem informative_empty {v : JV} (h : Informative v) : emptyJV v = false := by
  obtain ⟨h1, h2, h3, h4, h5⟩ := h
  cases v with
  | null => rfl
  | bool b => cases b with
    | false => exact absurd rfl h2
    | true => rfl
  | num q => simp only [emptyJV, beq_eq_false_iff_ne]; intro e; exact h3 (by rw [e])
  | str s => simp only [emptyJV, beq_eq_false_iff_ne]; intro e; exact h1 (by rw [e])
  | arr l => cases l with
    | nil => exact absurd rfl h4
    | cons _ _ => rfl
  | obj l => cases l with
    | nil => exact absurd rfl h5
    | cons _ _ => rfl

theorem write_nodup {S : List MField} (ok : TableOk S) {m : MStruct} (he : m.extra.WF) : ((writeMeta S m).map Prod.fst).Nodup :=
  marshalObj_nodup ok.tags he

/-- Writing the metadata of the given entity type. -/
abbrev writeEntity (t : EType) (m : MStruct) : JObj := writeMeta (metaFields t) m

/-- **C90** (part): metadata that was read and is written again has every unknown claim unchanged, and every known claim whose value says something (is
not empty, false or zero), as it was read. -/
theorem C90_kept_partial (opq : Opaque) (t : EType) (l : JObj) (m : MStruct) (hu : UniqueNames l) (hx : ExactNames (metaFields t) l)
    (h : readEntity opq t l = some m) :
    (∀ k v, (k, v) ∈ l → (∀ f ∈ metaFields t, f.tag ≠ k) → OnlyMember (writeEntity t m) k v) ∧
    (∀ f ∈ metaFields t, ∀ v, (f.tag, v) ∈ l → v ≠ .null → ∃ w, Reads opq f.kind v w ∧
      (Informative w → OnlyMember (writeEntity t m) f.tag w)) := by
  have h0 := h
  unfold readEntity at h
  rw [C92_same_fields] at h
  obtain ⟨o, rfl, h1, h2, h3⟩ := read_spec (tables_ok t) hu hx h
  have he : (fromPtrs (metaFields t) (metaFields t) o).extra.WF := by
    show AMap.WF o.extra
    rw [h3]; exact objMap_filter_wf l _
  have hnd := write_nodup (tables_ok t) he
  constructor
  · intro k v hkv hk
    apply onlyMember_of hnd
    rw [write_get (tables_ok t) he]
    have hk' : k ∉ (metaFields t).map MField.tag := by
      intro hm
      obtain ⟨f, hf, e⟩ := List.mem_map.mp hm
      exact hk f hf e
    have : AMap.get (fromPtrs (metaFields t) (metaFields t) o).extra k = some v := by
      show AMap.get o.extra k = some v
      rw [read_extra_get hu h3, if_neg hk']
      exact jget_of_mem hu hkv
    rw [this]; rfl
  · intro f hf v hv hne
    obtain ⟨w, hw, hr⟩ := (C89_values_partial opq t l _ hu hx h0 f hf).1 v hv hne
    refine ⟨w, hr, fun hi => ?_⟩
    apply onlyMember_of hnd
    rw [write_get (tables_ok t) he]
    have hn : AMap.get (fromPtrs (metaFields t) (metaFields t) o).extra f.tag = none := by
      show AMap.get o.extra f.tag = none
      rw [read_extra_get hu h3, if_pos (List.mem_map.mpr ⟨f, hf, rfl⟩)]
    rw [hn, find_by MField.tag (tables_ok t).tags hf]
    simp only [Option.none_or, hw, writeField, informative_empty hi, Bool.and_false, Bool.false_eq_true, if_false]

/-- **C90** (part): nothing is written that was not stated, except claims the struct always writes. -/
theorem C90_nothing_invented_partial (opq : Opaque) (t : EType) (l : JObj) (m : MStruct) (hu : UniqueNames l)
    (hx : ExactNames (metaFields t) l) (h : readEntity opq t l = some m) (k : String) (v : JV) (hk : (k, v) ∈ writeEntity t m) :
    (∃ v', (k, v') ∈ l) ∨ ∃ f ∈ metaFields t, f.tag = k ∧ f.omits = false := by
  have h0 := h
  unfold readEntity at h
  rw [C92_same_fields] at h
  obtain ⟨o, rfl, h1, h2, h3⟩ := read_spec (tables_ok t) hu hx h
  have he : (fromPtrs (metaFields t) (metaFields t) o).extra.WF := by
    show AMap.WF o.extra
    rw [h3]; exact objMap_filter_wf l _
  have hg := jget_of_mem (write_nodup (tables_ok t) he) hk
  rw [write_get (tables_ok t) he] at hg
  cases hx' : AMap.get (fromPtrs (metaFields t) (metaFields t) o).extra k with
  | some w =>
    left
    have : AMap.get o.extra k = some w := hx'
    rw [read_extra_get hu h3] at this
    split at this
    · cases this
    · exact ⟨w, jget_mem this⟩
  | none =>
    rw [hx', Option.none_or] at hg
    split at hg
    · cases hg
    · rename_i f hf
      have hf1 := List.mem_of_find?_eq_some hf
      have hf2 : f.tag = k := by simpa using List.find?_some hf
      by_cases ho : f.omits = true
      · left
        by_cases hs : States l f.tag
        · obtain ⟨v', hv', _⟩ := hs
          exact ⟨v', by rw [← hf2]; exact hv'⟩
        · exfalso
          rw [(C89_values_partial opq t l _ hu hx h0 f hf1).2 hs] at hg
          have e0 : ((0 : Rat) == 0) = true := by decide
          revert hg
          cases hkd : f.kind <;> simp [writeField, MKind.zero, emptyJV, ho, hkd]
      · right
        exact ⟨f, hf1, hf2, by simpa using ho⟩

/-- A claim that is dropped: what a reader concludes changes, since `request_uri_parameter_supported` is true by default (OpenID Connect
Discovery, section 3). -/
def exOP : JObj := [("issuer", .str "https://op"), ("request_uri_parameter_supported", .bool false), ("scopes_supported", .arr []), ("x", .null)]

set_option maxRecDepth 10000 in
/-- The hypotheses are met by an OP's metadata. -/
example : UniqueNames exOP ∧ ExactNames (metaFields .op) exOP ∧ ∃ m, readEntity exOpq .op exOP = some m := by
  refine ⟨by unfold UniqueNames; decide, ?_, _, rfl⟩
  unfold ExactNames; simp only [exOP, metaFields]; decide

set_option maxRecDepth 10000 in
/-- **C90 fails**: an explicit false is not written again. -/
theorem C90_false_lost_refuted :
    ∃ m, readEntity exOpq .op exOP = some m ∧ ("request_uri_parameter_supported", JV.bool false) ∈ exOP ∧
      ∀ v, ("request_uri_parameter_supported", v) ∉ writeEntity .op m := by
  refine ⟨_, rfl, by simp [exOP], ?_⟩
  intro v hv
  exact (jget_none_iff _ "request_uri_parameter_supported").mp rfl (List.mem_map.mpr ⟨_, hv, rfl⟩)

set_option maxRecDepth 10000 in
/-- **C90 fails**: claims are written that were not stated, with the value null or the empty string. -/
theorem C90_invented_refuted :
    ∃ m, readEntity exOpq .op exOP = some m ∧ (∀ v, ("token_endpoint", v) ∉ exOP ∧ ("response_types_supported", v) ∉ exOP) ∧
      AMap.get (writeEntity .op m) "token_endpoint" = some (.str "") ∧
      AMap.get (writeEntity .op m) "response_types_supported" = some .null := by
  exact ⟨_, rfl, by simp [exOP], rfl, rfl⟩

set_option maxRecDepth 10000 in
/-- **C90 fails** with consequences for policies: an RP that explicitly requires no signed request objects keeps this under a superior's default of
true when its own metadata is used, and loses it when its metadata was written and read again. -/
theorem C90_presence_lost_refuted :
    ∃ m m', readEntity exOpq .rp [("require_signed_request_object", .bool false)] = some m ∧
      readEntity exOpq .rp (writeEntity .rp m) = some m' ∧
      (((m.toMeta ⟨fun _ => 0, fun _ => 0⟩ (metaFields .rp)).apply [("require_signed_request_object", [("default", .bool true)])]).toOption.bind
        (fun em => (em.fields.find? (fun f => f.tag == "require_signed_request_object")).map Field.val)) = some (.bool false) ∧
      (((m'.toMeta ⟨fun _ => 0, fun _ => 0⟩ (metaFields .rp)).apply [("require_signed_request_object", [("default", .bool true)])]).toOption.bind
        (fun em => (em.fields.find? (fun f => f.tag == "require_signed_request_object")).map Field.val)) = some (.bool true) :=
  ⟨_, _, rfl, rfl, rfl, rfl⟩

/-- What is assumed of the decoders of maps and key sets: what they return is decoded to itself and is not null (a key set with keys), and a map is an
object. -/
structure OpaqueOk (opq : Opaque) : Prop where
  again : ∀ k v w, opq k v = some w → opq k w = some w ∧ w ≠ .null
  map : ∀ v w, opq .map v = some w → ∃ l, w = .obj l

/-- A metadata struct a program can have: every field has a value of its type, and no additional claim has the name of a field. -/
structure MStruct.Ok (opq : Opaque) (S : List MField) (m : MStruct) : Prop where
  wf : m.extra.WF
  apart : ∀ k ∈ m.extra.keys, ∀ f ∈ S, foldName f.tag ≠ foldName k
  typed : ∀ f ∈ S, ∀ w, m.val f.name = some w → decMeta opq f.kind w = some (some w)
  nonnil : ∀ f ∈ S, m.val f.name = none → f.kind.zero = none

/-- Any metadata that is written can be read again. -/
theorem write_read (opq : Opaque) (hq : ∀ v w, opq .map v = some w → ∃ l, w = .obj l) (t : EType) (m : MStruct)
    (hm : m.Ok opq (metaFields t)) :
    ∃ m', readEntity opq t (writeEntity t m) = some m' ∧ (∀ f ∈ metaFields t, SameContent (m'.val f.name) (m.val f.name)) ∧
      ∀ k, AMap.get m'.extra k = AMap.get m.extra k := by
  unfold readEntity
  rw [C92_same_fields]
  have ok := tables_ok t
  have he := hm.wf
  have hu' : UniqueNames (writeEntity t m) := write_nodup ok he
  have hA := hm.typed
  have hnone : ∀ k ∈ (metaFields t).map MField.tag, AMap.get m.extra k = none := by
    intro k hk
    rw [jget_none_iff]
    intro hm'
    obtain ⟨f, hf, rfl⟩ := List.mem_map.mp hk
    exact hm.apart _ hm' f hf rfl
  -- what is written for a field
  have hW : ∀ f ∈ metaFields t, AMap.get (writeEntity t m) f.tag = writeField f (m.val f.name) := by
    intro f hf
    rw [write_get ok he, hnone _ (List.mem_map.mpr ⟨f, hf, rfl⟩), find_by MField.tag ok.tags hf]
    rfl
  have hE : ∀ k, k ∉ (metaFields t).map MField.tag → AMap.get (writeEntity t m) k = AMap.get m.extra k := by
    intro k hk
    rw [write_get ok he]
    have : (metaFields t).find? (fun f => f.tag == k) = none := by
      rw [List.find?_eq_none]
      intro f hf e
      exact hk (List.mem_map.mpr ⟨f, hf, by simpa using e⟩)
    rw [this]
    simp only [Option.or_none]
  have hx' : ExactNames (metaFields t) (writeEntity t m) := by
    intro kv hkv f hf e
    by_cases hm' : kv.1 ∈ (metaFields t).map MField.tag
    · obtain ⟨g, hg, eg⟩ := List.mem_map.mp hm'
      rw [← eg] at e
      rw [(C92_one_field t f hf g hg).1 e, eg]
    · have hg := jget_of_mem hu' hkv
      rw [hE _ hm'] at hg
      exact absurd e (hm.apart _ (List.mem_map.mpr ⟨_, jget_mem hg, rfl⟩) f hf)
  have hrd : ∃ m', readMeta opq (metaFields t) (metaFields t) (writeEntity t m) = some m' := by
    have : ∃ g, decodeKnown ((metaFields t).map MField.tag) (ptrDec opq (metaFields t)) (writeEntity t m) (fun _ => none) = some g := by
      apply decodeKnown_ok _ _ _ _ hu'
      intro kv hkv
      rcases exact_fieldFor hx' hkv with hm' | hm'
      · left
        refine ⟨hm', ?_⟩
        obtain ⟨f, hf, e⟩ := List.mem_map.mp hm'
        have hg := jget_of_mem hu' hkv
        rw [← e, hW f hf] at hg
        simp only [ptrDec, intoMap_none, ite_self]
        rw [← e, find_by MField.tag ok.tags hf]
        simp only
        cases hv : m.val f.name with
        | none =>
          rw [hv] at hg
          simp only [writeField] at hg
          split at hg
          · cases hg
          · rw [← Option.some.inj hg]; simp [decMeta]
        | some w =>
          rw [hv] at hg
          simp only [writeField] at hg
          split at hg
          · cases hg
          · rw [← Option.some.inj hg, hA f hf _ hv]; rfl
      · exact .inr hm'
    obtain ⟨g, hg⟩ := this
    simp only [readMeta, unmarshalObj, hg, Option.map_some]
    exact ⟨_, rfl⟩
  obtain ⟨m', hm'⟩ := hrd
  refine ⟨m', hm', ?_, ?_⟩
  · obtain ⟨o', rfl, g1, g2, g3⟩ := read_spec ok hu' hx' hm'
    intro f hf
    rw [fromPtrs_val ok o' hf]
    cases hv : m.val f.name with
    | none =>
      have hz : f.kind.zero = none := hm.nonnil f hf hv
      have hk : o'.known f.tag = none := by
        by_cases hom : f.omits = true
        · apply g2 f hf
          rw [← jget_none_iff]
          rw [hW f hf, hv]
          simp [writeField, hom]
        · have hmem : (f.tag, JV.null) ∈ writeEntity t m := by
            apply jget_mem
            rw [hW f hf, hv]
            simp [writeField, hom]
          rcases decMeta_spec (g1 f hf _ hmem) with ⟨_, e⟩ | ⟨e, _⟩
          · exact e
          · exact absurd rfl e
      rw [hk, hz]
      exact .inl rfl
    | some w =>
      by_cases hwr : (f.omits && (f.kind != .ptr && emptyJV w)) = true
      · have hk : o'.known f.tag = none := by
          apply g2 f hf
          rw [← jget_none_iff, hW f hf, hv]
          simp only [writeField, hwr, if_true]
        rw [hk, Option.none_or]
        have hd := hA f hf w hv
        simp only [Bool.and_eq_true, bne_iff_ne] at hwr
        obtain ⟨_, hp, hem⟩ := hwr
        rcases decMeta_spec hd with ⟨_, e⟩ | ⟨_, w', e, hr⟩
        · cases e
        · cases e
          cases hkd : f.kind with
          | str =>
            rw [hkd] at hr
            obtain ⟨_, x, rfl⟩ := hr
            simp only [emptyJV, beq_iff_eq] at hem
            left; rw [hem]; rfl
          | bool =>
            rw [hkd] at hr
            obtain ⟨_, x, rfl⟩ := hr
            simp only [emptyJV, Bool.not_eq_true'] at hem
            left; rw [hem]; rfl
          | int =>
            rw [hkd] at hr
            obtain ⟨_, x, rfl⟩ := hr
            simp only [emptyJV, beq_iff_eq] at hem
            left; rw [hem]; rfl
          | strs =>
            rw [hkd] at hr
            obtain ⟨x, rfl, _, _⟩ := hr
            simp only [emptyJV, List.isEmpty_iff] at hem
            subst hem
            exact .inr ⟨.inl rfl, .inr (.inl rfl)⟩
          | map =>
            rw [hkd] at hr
            obtain ⟨x, rfl⟩ := hq _ _ hr
            simp only [emptyJV, List.isEmpty_iff] at hem
            subst hem
            exact .inr ⟨.inl rfl, .inr (.inr rfl)⟩
          | ptr => exact absurd hkd hp
      · have hmem : (f.tag, w) ∈ writeEntity t m := by
          apply jget_mem
          rw [hW f hf, hv]
          simp only [writeField, hwr, Bool.false_eq_true, if_false]
        have := g1 f hf w hmem
        rw [hA f hf w hv] at this
        rw [← Option.some.inj this]
        exact .inl rfl
  · obtain ⟨o', rfl, g1, g2, g3⟩ := read_spec ok hu' hx' hm'
    intro k
    show AMap.get o'.extra k = AMap.get m.extra k
    rw [read_extra_get hu' g3]
    split
    · rename_i hk
      rw [hnone k hk]
    · rename_i hk
      exact hE k hk

/-- **C90** (part): metadata that was read and is written can be read again, with the same value for every attribute (nil and empty lists and maps not being
told apart) and the same unknown claims. -/
theorem C90_stable_partial (opq : Opaque) (hq : OpaqueOk opq) (t : EType) (l : JObj) (m : MStruct) (hu : UniqueNames l)
    (hx : ExactNames (metaFields t) l) (h : readEntity opq t l = some m) :
    ∃ m', readEntity opq t (writeEntity t m) = some m' ∧ (∀ f ∈ metaFields t, SameContent (m'.val f.name) (m.val f.name)) ∧
      ∀ k, AMap.get m'.extra k = AMap.get m.extra k := by
  refine write_read opq hq.map t m ?_
  unfold readEntity at h
  rw [C92_same_fields] at h
  obtain ⟨o, rfl, h1, h2, h3⟩ := read_spec (tables_ok t) hu hx h
  have ok := tables_ok t
  refine ⟨?_, ?_, ?_, ?_⟩
  · show AMap.WF o.extra
    rw [h3]; exact objMap_filter_wf l _
  · intro k hk f hf e
    have hk' : k ∈ AMap.keys o.extra := hk
    rw [h3] at hk'
    obtain ⟨h4, h5⟩ := extra_keys hk'
    obtain ⟨x, hx1, rfl⟩ := List.mem_map.mp h4
    exact h5 (by rw [← hx x hx1 f hf e]; exact List.mem_map.mpr ⟨f, hf, rfl⟩)
  · intro f hf w hw
    rw [fromPtrs_val ok o hf] at hw
    cases hk : o.known f.tag with
    | none => rw [hk, Option.none_or] at hw; exact zero_again opq f.kind w hw
    | some u =>
      rw [hk] at hw
      simp only [Option.some_or, Option.some.injEq] at hw
      subst hw
      by_cases hm : f.tag ∈ l.map Prod.fst
      · obtain ⟨x, hx1, hx2⟩ := List.mem_map.mp hm
        have hv : (f.tag, x.2) ∈ l := by rw [← hx2]; exact hx1
        have hd := h1 f hf _ hv
        rw [hk] at hd
        rcases decMeta_spec hd with ⟨_, e⟩ | ⟨_, w, e, hr⟩
        · cases e
        · cases e
          exact reads_again hr (hq.again f.kind) hd
      · rw [h2 f hf hm] at hk; cases hk
  · intro f hf hv
    rw [fromPtrs_val ok o hf] at hv
    cases hz : f.kind.zero with
    | none => rfl
    | some _ => rw [hz] at hv; cases ho : o.known f.tag <;> rw [ho] at hv <;> cases hv

/-- The assumptions about the decoders can be met. -/
example : OpaqueOk (fun _ v => match v with | .obj l => some (.obj l) | _ => none) where
  again := by intro k v w h; cases v <;> simp at h; subst h; simp
  map := by intro v w h; cases v <;> simp at h; subst h; simp

/-! ## C91 -/

/-- **C91 fails** for every entity type the library knows: the call reports success and leaves the caller's object as it was. -/
theorem C91_known_type_refuted {α : Type} (m : JMetadata) (t : EType) (dec : α → JV → Option α) (target : α) (hm : (m.known t).isSome) :
    findEntityMetadata m t.tag dec target = ⟨false, target⟩ := by
  unfold findEntityMetadata
  have : EType.all.any (fun u => u.tag == t.tag && (m.known u).isSome) = true := by
    rw [List.any_eq_true]
    exact ⟨t, by cases t <;> simp [EType.all], by simp [hm]⟩
  rw [this]
  rfl

/-- Metadata with an entity type the library knows and one it does not. -/
def exMetadata : Option JMetadata :=
  readMetadata exOpq [("federation_entity", .obj [("organization_name", .str "org")]), ("wallet", .obj [("a", .str "b")])]

/-- A caller's object with one field. -/
def exTarget (_ : String) : JV → Option String
  | .obj [(_, .str s)] => some s
  | _ => none

/-- **C91 fails**: the metadata is there, the call succeeds, and the caller's object is still empty. -/
theorem C91_refuted : ∃ m, exMetadata = some m ∧ (m.known .fed).isSome ∧ findEntityMetadata m "federation_entity" exTarget "" = ⟨false, ""⟩ :=
  ⟨_, rfl, rfl, rfl⟩

/-- **C91** (part): for an entity type the library does not know the call succeeds exactly if there is metadata for it that can be decoded into the
caller's object, which then holds it. The name `-` is left out: it stands for the map of all entity types the library does not know, and is answered like a known
type. -/
theorem C91_unknown_type_partial {α : Type} (opq : Opaque) (l : JObj) (m : JMetadata) (h : readMetadata opq l = some m) (type : String)
    (ht : ∀ t : EType, t.tag ≠ type) (hd : type ≠ "-") (dec : α → JV → Option α) (target : α) :
    (∀ r, findEntityMetadata m type dec target = ⟨false, r⟩ ↔ ∃ v, LastMember l type v ∧ dec target v = some r) := by
  have hx : AMap.get m.extra type = lastMember l type := by
    rw [(readMetadata_iff.mp h).2]
    rw [jget_filter (p := fun k => !((EType.all.map EType.tag).contains k)), objMap_get]
    have : (EType.all.map EType.tag).contains type = false := by
      simp only [List.contains_eq_mem, decide_eq_false_iff_not, List.mem_map]
      rintro ⟨t, _, e⟩
      exact ht t e
    rw [this]; rfl
  have hno : EType.all.any (fun t => t.tag == type && (m.known t).isSome) = false := by
    rw [List.any_eq_false]
    intro t _
    simp [ht t]
  intro r
  unfold findEntityMetadata
  rw [hno, hx, show (type == "-") = false by simpa using hd]
  simp only [Bool.false_and, Bool.false_or, Bool.false_eq_true, if_false]
  constructor
  · intro h
    split at h
    · cases h
    · rename_i v hv
      split at h
      · cases h
      · rename_i r' hr'
        cases h
        exact ⟨v, (lastMember_iff l type v).mp hv, hr'⟩
  · rintro ⟨v, hv, hr⟩
    rw [(lastMember_iff l type v).mpr hv]
    simp only [hr]

/-- The metadata of a type the library does not know is found. -/
example : ∃ m, exMetadata = some m ∧ findEntityMetadata m "wallet" exTarget "" = ⟨false, "b"⟩ := ⟨_, rfl, rfl⟩

/-- **C91 fails** for `-`: there is no metadata for an entity type of that name, yet the call succeeds. -/
theorem C91_dash_refuted : ∃ m, exMetadata = some m ∧ AMap.get m.extra "-" = none ∧ findEntityMetadata m "-" exTarget "" = ⟨false, ""⟩ := ⟨_, rfl, rfl, rfl⟩

end Oidfed
