import Verif.Spec.CollectJSON
import Verif.Props.ResolveJSON
import Verif.Props.Discovery
/-!
# Collection responses through the wire: C114
-/

namespace Oidfed
open Spec

/-- Reading a struct with `Extra`, where `Extra` may also contain claims that have a field. -/
theorem obj_read_all {tags : List String} (ht : tags.Nodup) {dec : FieldDec} {o : JStruct} (he : o.extra.WF)
    (hx : ∀ k v, AMap.get o.extra k = some v → (k ∈ tags ∧ dec k none v = some (some v)) ∨ ∀ t ∈ tags, Apart t k)
    (h : ∀ t ∈ tags, ∀ v, o.known t = some v → dec t none v = some (some v)) :
    ∃ e, unmarshalObj tags dec (marshalObj tags o) = some ⟨fun t => if t ∈ tags then (AMap.get o.extra t).or (o.known t) else none, e⟩ ∧
      ∀ k, AMap.get e k = if k ∈ tags then none else AMap.get o.extra k := by
  have hn := marshalObj_nodup ht he
  have hget := marshalObj_get ht he
  have hdec : decodeKnown tags dec (marshalObj tags o) (fun _ => none) =
      some (fun t => if t ∈ tags then (AMap.get o.extra t).or (o.known t) else none) := by
    refine decodeKnown_as hn ?_ ?_
    · intro kv hkv
      have h1 := jget_of_mem hn hkv
      rw [hget] at h1
      by_cases hk : kv.1 ∈ tags
      · left
        refine ⟨hk, ?_⟩
        rw [if_pos hk] at h1
        rw [if_pos hk, h1]
        cases hg : AMap.get o.extra kv.1 with
        | none => rw [hg, Option.none_or] at h1; exact h _ hk _ h1
        | some v =>
          rw [hg, Option.some_or] at h1
          cases h1
          rcases hx _ _ hg with h2 | h2
          · exact h2.2
          · exact absurd rfl (h2 kv.1 hk)
      · right
        rw [if_neg hk, Option.or_none] at h1
        apply fieldFor_none
        rcases hx _ _ h1 with h2 | h2
        · exact absurd h2.1 hk
        · exact h2
    · intro t ht'
      rcases ht' with h1 | h1
      · exact if_neg h1
      · rw [← jget_none_iff, hget] at h1
        by_cases hk : t ∈ tags
        · rw [if_pos hk] at h1 ⊢; exact h1
        · exact if_neg hk
  unfold unmarshalObj
  rw [hdec]
  refine ⟨_, rfl, ?_⟩
  intro k
  rw [jget_filter (p := fun k => !(tags.contains k)), objMap_get, lastMember_nodup hn, hget]
  by_cases hk : k ∈ tags
  · simp [hk]
  · simp [hk]

theorem uiDec_str {t : String} (ht : t ≠ "keywords") (s : String) (cur : Option JV) : uiDec t cur (.str s) = some (some (.str s)) := by
  simp only [uiDec, if_neg ht, decString]

theorem uiDec_list (l : List String) (cur : Option JV) : uiDec "keywords" cur (.arr (l.map .str)) = some (some (.arr (l.map .str))) := by
  simp only [uiDec, if_true]
  exact keepIf_some (ok := fun v => (decStrs v).isSome) (v := .arr (l.map .str)) (by simp) (by simp [decStrs, decStrings_strs])

theorem omitStr_some {s : String} {v : JV} (h : omitStr s = some v) : v = .str s := by
  unfold omitStr at h
  split at h
  · cases h
  · cases h; rfl

theorem decUI_ui (u : JUI) (hu : UIOk u) : ∃ u', decUI (uiJV u) = some u' ∧ SameUI u u' := by
  obtain ⟨e, h1, h2⟩ := obj_read_all (tags := uiTags) (by decide) (dec := uiDec) (o := ⟨uiFields u, u.extra⟩) hu.1
    (by
      intro k v hk
      rcases hu.2 k v hk with h | ⟨h, hne, s, rfl⟩ | ⟨rfl, l, rfl⟩
      · exact .inr h
      · exact .inl ⟨h, uiDec_str hne _ _⟩
      · exact .inl ⟨by decide, uiDec_list _ _⟩)
    (by
      intro t ht v hv
      simp only [uiTags, List.mem_cons, List.not_mem_nil, or_false] at ht
      rcases ht with rfl | rfl | rfl | rfl | rfl | rfl
      · rw [omitStr_some (show omitStr u.displayName = some v from hv)]; exact uiDec_str (by decide) _ _
      · rw [omitStr_some (show omitStr u.description = some v from hv)]; exact uiDec_str (by decide) _ _
      · exact keep_omitStrs (show omitStrs u.keywords = some v from hv)
      · rw [omitStr_some (show omitStr u.logoURI = some v from hv)]; exact uiDec_str (by decide) _ _
      · rw [omitStr_some (show omitStr u.policyURI = some v from hv)]; exact uiDec_str (by decide) _ _
      · rw [omitStr_some (show omitStr u.informationURI = some v from hv)]; exact uiDec_str (by decide) _ _)
  refine ⟨_, by simp only [uiJV, decUI, h1, Option.map_some]; rfl, ?_⟩
  have htext : ∀ t ∈ uiTags, t ≠ "keywords" → ∀ s, uiFields u t = omitStr s →
      strOf (if t ∈ uiTags then (AMap.get u.extra t).or (uiFields u t) else none) = uiText u t s := by
    intro t ht hne s hs
    rw [if_pos ht, hs]
    unfold uiText
    cases hg : AMap.get u.extra t with
    | none => rw [Option.none_or]; exact strOf_omit s
    | some v =>
      rcases hu.2 t v hg with h | ⟨_, _, s', rfl⟩ | ⟨rfl, _⟩
      · exact absurd rfl (h t ht)
      · rfl
      · exact absurd rfl hne
  constructor
  case displayName => exact htext "display_name" (by decide) (by decide) _ rfl
  case description => exact htext "description" (by decide) (by decide) _ rfl
  case logoURI => exact htext "logo_uri" (by decide) (by decide) _ rfl
  case policyURI => exact htext "policy_uri" (by decide) (by decide) _ rfl
  case informationURI => exact htext "information_uri" (by decide) (by decide) _ rfl
  case keywords =>
    show (strsOf ((AMap.get u.extra "keywords").or (omitStrs u.keywords))).getD [] = _
    unfold uiKeywords
    cases hg : AMap.get u.extra "keywords" with
    | none => rw [Option.none_or]; exact sameElems_omit u.keywords
    | some v =>
      rcases hu.2 _ v hg with h | ⟨_, h, _⟩ | ⟨_, l, rfl⟩
      · exact absurd rfl (h "keywords" (by decide))
      · exact absurd rfl h
      · simp only [Option.some_or, strsOf, decStrs, decStrings_strs, Option.map_some, Option.getD_some]
        clear hg
        induction l with
        | nil => rfl
        | cons a l ih => rw [List.map_cons, List.filterMap_cons]; exact congrArg (a :: ·) ih
  case extra => exact fun k hk => (h2 k).trans (if_neg hk)
  case fieldsOnly => exact fun k hk => (h2 k).trans (if_pos hk)

theorem decEntity_entity {P : String → Option Jws} (e : JEntity) (he : EntityOk P e) :
    ∃ v e', entityJV e = .ok v ∧ decEntity P v = some (some e') ∧ SameEntity e e' := by
  obtain ⟨raws, ms, h1, h2, h3⟩ := rawJwts_ok he.chain
  have hlen : raws = [] → e.chain.getD [] = [] := by
    intro h
    rw [h] at h2
    cases h2
    rw [← h3]; rfl
  have hui : ∃ r, decMap decUI (mapJV uiJV e.ui) = some r ∧ SameMap SameUI e.ui r := map_roundtrip he.ui.1 (fun kv hkv => decUI_ui kv.2 (he.ui.2 kv hkv))
  obtain ⟨r, hr, hrs⟩ := hui
  obtain ⟨x, h4, h5⟩ := obj_roundtrip_as (tags := entityTags) (by decide) (dec := entityDec P) (o := ⟨entityFields e raws, e.extra⟩) he.extra
    (g := entityFields e raws)
    (by
      intro t ht v hv
      have hv : entityFields e raws t = some v := hv
      rw [hv]
      simp only [entityTags, List.mem_cons, List.not_mem_nil, or_false] at ht
      rcases ht with rfl | rfl | rfl | rfl | rfl
      · cases hv; rfl
      · have hv' : omitList markInfoJV e.marks = some v := hv
        cases hc : e.marks with
        | none => rw [hc] at hv'; cases hv'
        | some l =>
          rw [hc] at hv'
          simp only [omitList] at hv'
          split at hv'
          · cases hv'
          · cases hv'
            obtain ⟨a, h1, _⟩ := list_roundtrip (R := SameInfo) (f := decInfo) (g := markInfoJV) (l := l)
              (fun i hi => decInfo_info i (he.marks i (by rw [hc]; exact hi)))
            exact keepIf_some (ok := fun v => (decInfos v).isSome) (v := .arr (l.map markInfoJV)) (by simp) (by simp only [decInfos, h1]; rfl)
      · have hv' : omitStrs (some raws) = some v := hv
        simp only [omitStrs] at hv'
        split at hv'
        · cases hv'
        · cases hv'
          show chainDec P none (.arr (raws.map .str)) = _
          simp only [chainDec, decStrings_strs, h2, Option.isSome_some, if_true, chainTexts, List.nil_append]
          rfl
      · exact keep_omitStrs (show omitStrs e.types = some v from hv)
      · have hv' : (if e.ui.isEmpty then none else some (mapJV uiJV e.ui)) = some v := hv
        split at hv'
        · cases hv'
        · cases hv'
          exact keepInto_some (join := (· ++ ·)) (ok := fun v => (decMap decUI v).isSome) (mapJV_ne _ _) (by simp only [hr]; rfl))
    (by
      intro t ht
      rcases ht with ht | ht
      · simp only [entityTags, List.mem_cons, List.not_mem_nil, or_false, not_or] at ht
        simp only [entityFields, ht, if_false]
      · exact ht)
  refine ⟨_, _, by simp only [entityJV, h1]; rfl, by simp only [decEntity, h4, Option.map_some]; rfl, ?_⟩
  constructor
  case id => rfl
  case marks =>
    show SameList SameInfo (e.marks.getD []) (((omitList markInfoJV e.marks).bind decInfos).getD [])
    cases hm : e.marks with
    | none => exact fun n => by simp only [Option.getD_none, omitList, Option.bind_none, List.getElem?_nil]; exact .none
    | some a =>
      simp only [omitList]
      split
      · rename_i ha
        rw [List.isEmpty_iff.mp ha]
        exact fun n => by simp only [Option.getD_some, Option.bind_none, Option.getD_none, List.getElem?_nil]; exact .none
      · obtain ⟨b, h4, h5⟩ := list_roundtrip (R := SameInfo) (f := decInfo) (g := markInfoJV) (l := a)
          (fun i hi => decInfo_info i (he.marks i (by rw [hm]; exact hi)))
        simp only [Option.bind_some, decInfos, h4, Option.getD_some]
        exact h5
  case chain =>
    show ((omitStrs (some raws)).bind (fun v => (parseJwts P (chainTexts (some v))).map (fun l => l.map some))).getD [] = _
    simp only [omitStrs]
    split
    · rename_i ha
      rw [hlen (List.isEmpty_iff.mp ha)]; rfl
    · simp only [strsJV, Option.bind_some, chainTexts_strs, h2, Option.map_some, Option.getD_some, h3]
  case types => exact sameElems_omit e.types
  case ui =>
    show SameMap SameUI e.ui (((if e.ui.isEmpty then none else some (mapJV uiJV e.ui)).bind (decMap decUI)).getD [])
    split
    · rename_i h
      rw [List.isEmpty_iff.mp h]
      exact fun _ => .none
    · simp only [Option.bind_some, hr, Option.getD_some]
      exact hrs
  case extra => exact sameMap_eq.mpr h5

theorem decEntities_entities {P : String → Option Jws} : ∀ (l : List (Option JEntity)), (∀ e ∈ l, ∀ x, e = some x → EntityOk P x) →
    ∃ vs r, entitiesJV l = .ok vs ∧ decList (decEntity P) vs = some r ∧ SameList (Option.Rel SameEntity) l r := by
  intro l
  induction l with
  | nil => intro _; exact ⟨[], [], rfl, rfl, fun n => by simp only [List.getElem?_nil]; exact .none⟩
  | cons a l ih =>
    intro h
    obtain ⟨vs, r, h1, h2, h3⟩ := ih (fun e he => h e (List.mem_cons_of_mem _ he))
    cases a with
    | none =>
      refine ⟨.null :: vs, none :: r, by simp only [entitiesJV, h1], by simp only [decList, decEntity, h2], ?_⟩
      intro n
      cases n with
      | zero => exact .some .none
      | succ n => exact h3 n
    | some e =>
      obtain ⟨v, e', h4, h5, h6⟩ := decEntity_entity e (h _ List.mem_cons_self e rfl)
      refine ⟨v :: vs, some e' :: r, by simp only [entitiesJV, h1, h4], by simp only [decList, h5, h2], ?_⟩
      intro n
      cases n with
      | zero => exact .some (.some h6)
      | succ n => exact h3 n

theorem collection_read {P : String → Option Jws} {c : JCollection} (hc : CollectionOk P c) :
    ∃ l d, c.write = .ok l ∧ JCollection.read P l = some d ∧ SameCollection c d := by
  obtain ⟨vs, r, h1, h2, h3⟩ := decEntities_entities (P := P) (c.entities.getD []) hc.entities
  have h4 := fields_roundtrip (tags := collectionTags) (by decide) (dec := collectionDec P) (f := collectionFields c vs)
    (g := fun t => if t = "federation_entities" then c.entities.map (fun _ => .arr vs) else collectionFields c vs t)
    (by
      intro t ht v hv
      simp only [collectionTags, List.mem_cons, List.not_mem_nil, or_false] at ht
      rcases ht with rfl | rfl | rfl
      · cases hv
        show keepIf _ _ = some (c.entities.map (fun _ => JV.arr vs))
        cases c.entities with
        | none => rfl
        | some l => exact keepIf_some (ok := fun v => (decEntities P v).isSome) (v := .arr vs) (by simp) (by simp only [decEntities, h2]; rfl)
      · have := omitStr_some (show omitStr c.next = some v from hv)
        subst this
        show decString none (.str c.next) = some (collectionFields c vs "next_entity_id")
        rw [hv]; rfl
      · show _ = some (collectionFields c vs "last_updated")
        rw [hv]
        obtain ⟨u, hu, rfl⟩ := Option.map_eq_some_iff.mp (show c.updated.map (fun u => JV.num (marshalTime u)) = some v from hv)
        rfl)
    (by
      intro t ht
      rcases ht with ht | ht
      · simp only [collectionTags, List.mem_cons, List.not_mem_nil, or_false, not_or] at ht
        simp only [collectionFields, ht, if_false]
      · by_cases hf : t = "federation_entities"
        · subst hf; cases ht
        · rw [if_neg hf]; exact ht)
  refine ⟨_, _, by simp only [JCollection.write, h1]; rfl, by simp only [JCollection.read, h4, Option.map_some]; rfl, ?_⟩
  constructor
  case entities =>
    show Option.Rel _ c.entities ((c.entities.map (fun _ => JV.arr vs)).bind (decEntities P))
    cases he : c.entities with
    | none => exact .none
    | some l =>
      rw [he] at h3
      simp only [Option.map_some, Option.bind_some, decEntities, h2]
      exact .some h3
  case next => exact strOf_omit c.next
  case updated =>
    show Option.Rel _ c.updated (optTimeOf (c.updated.map (fun u => JV.num (marshalTime u))))
    cases hu : c.updated with
    | none => exact .none
    | some t => exact .some (timeOf_marshal t (hc.updated t hu))

/-- **C114** (part): what a server answers to a collection request is what the caller of the remote collector gets: the same entities in the same order, each with
the same id, trust marks, trust chain, entity types, UI information and additional claims. Missing: the metadata of the entities and the additional claims of the response. -/
theorem C114_collected_partial (P : String → Option Jws) (c : JCollection) (hc : CollectionOk P c) (status : Nat) (hs : 200 ≤ status ∧ status < 300) (err : String) :
    ∃ l d, c.write = .ok l ∧ JCollection.read P l = some d ∧ SameCollection c d ∧
      Option.Rel (SameList (Option.Rel SameEntity)) c.entities (collectFrom P (some (status, err, some l))) := by
  obtain ⟨l, d, h1, h2, h3⟩ := collection_read hc
  refine ⟨l, d, h1, h2, h3, ?_⟩
  simp only [collectFrom]
  rw [if_neg (by omega), if_pos hs, h2, Option.bind_some]
  exact h3.entities

/-- **C114** (part): the collector of C82, asking an endpoint that answers with what the server wrote, returns entities with the ids and entity types that the server
collected, in this order. -/
theorem C114_ids_types_partial (P : String → Option Jws) (N : Numbering) (c : JCollection) (hc : CollectionOk P c) (es : List (Option JEntity)) (he : c.entities = some es)
    (l : JObj) (hl : c.write = .ok l) (http : String → List (String × String) → Option ColResponse) (endpoint : String) (q : FullReq)
    (hh : http endpoint q.params = (JCollection.read P l).map (JCollection.toResponse N)) :
    ∃ r, http endpoint q.params = some ⟨some r, c.next⟩ ∧ remoteCollect http endpoint q = some r ∧
      SameList (Option.Rel (fun (e : JEntity) (x : Collected) => x.id = e.id ∧ x.types = e.types.getD [])) es r := by
  obtain ⟨l', d, h1, h2, h3⟩ := collection_read hc
  rw [hl] at h1
  cases h1
  have he' := h3.entities
  rw [he] at he'
  cases hd : d.entities with
  | none => rw [hd] at he'; cases he'
  | some ds =>
    rw [hd] at he'
    cases he' with
    | some hrel =>
      have e : (JCollection.read P l).map (JCollection.toResponse N) =
          some ⟨some (ds.map (fun e => e.map (fun e => ⟨e.id, e.types.getD [], e.metadata.map (JMetadata.toMetadata N)⟩))), c.next⟩ := by
        rw [h2]
        simp only [Option.map_some, JCollection.toResponse, hd, h3.next]
      refine ⟨_, hh.trans e, ?_, ?_⟩
      · simp only [remoteCollect, hh, e]
      · intro n
        have := hrel n
        rw [List.getElem?_map]
        cases h1 : es[n]? with
        | none => rw [h1] at this; cases h2 : ds[n]? with
          | none => exact .none
          | some y => rw [h2] at this; cases this
        | some x => cases h2 : ds[n]? with
          | none => rw [h1, h2] at this; cases this
          | some y =>
            rw [h1, h2] at this
            cases this with
            | some h =>
              refine .some ?_
              cases h with
              | none => exact .none
              | some h => exact .some ⟨h.id, h.types⟩

/-- **C114 fails** for the metadata: it is never in what a remote collector returns, also if it was requested and is in what the server collected. -/
theorem C114_metadata_refuted : (∀ (P : String → Option Jws) (a : Option (Nat × String × Option JObj)) (es : List (Option JEntity)), collectFrom P a = some es →
      ∀ e, some e ∈ es → e.metadata = none) ∧
    ∃ (c : JCollection) (e e' : JEntity) (l : JObj), c.entities = some [some e] ∧ e.metadata.isSome = true ∧ c.write = .ok l ∧
      collectFrom (fun _ => none) (some (200, "", some l)) = some [some e'] ∧ e'.id = e.id ∧ e'.metadata = none := by
  have hdec : ∀ (P : String → Option Jws) (l : List JV) (r : List (Option JEntity)), decList (decEntity P) l = some r → ∀ e, some e ∈ r → e.metadata = none := by
    intro P l
    induction l with
    | nil => intro r h; cases h; intro e he; cases he
    | cons v l ih =>
      intro r h e he
      simp only [decList] at h
      split at h
      · rename_i x y hx hy
        cases h
        rcases List.mem_cons.mp he with h | h
        · subst h
          cases v with
          | null => cases hx
          | obj o =>
            obtain ⟨s, _, hs⟩ := Option.map_eq_some_iff.mp (show (unmarshalObj entityTags (entityDec P) o).map (fun o => some (JEntity.ofStruct P o)) = _ from hx)
            rw [← Option.some.inj hs]; rfl
          | _ => cases hx
        · exact ih _ hy e h
      · cases h
  refine ⟨?_, ?_⟩
  · intro P a es h e he
    match a, h with
    | some (status, err, body), h =>
      simp only [collectFrom] at h
      split at h
      · cases h
      · split at h
        · split at h
          · cases h
          · rename_i o
            obtain ⟨c, hc, hce⟩ := Option.bind_eq_some_iff.mp h
            unfold JCollection.read at hc
            obtain ⟨f, _, rfl⟩ := Option.map_eq_some_iff.mp hc
            obtain ⟨v, _, hv⟩ := Option.bind_eq_some_iff.mp hce
            cases v with
            | arr vs => exact hdec P vs es hv e he
            | _ => cases hv
        · cases h
  · exact ⟨⟨some [some ⟨"https://op.example", none, none, some ExP.meta0, none, [], []⟩], "", none, []⟩, _, _, _, rfl, rfl, rfl, rfl, rfl, rfl⟩

/-- **C114 fails** for the additional claims of the response: they are not sent. -/
theorem C114_extra_refuted (P : String → Option Jws) : ¬ ∀ (c d : JCollection) (l : JObj), CollectionOk P c → c.write = .ok l → JCollection.read P l = some d →
    ∀ k, AMap.get d.extra k = AMap.get c.extra k := by
  intro h
  have := h ⟨some [], "", none, [("x", .num 1)]⟩ _ _ ⟨(by intro e he; cases he), (by intro t ht; cases ht)⟩ rfl rfl "x"
  cases this

/-- **C114 fails** for the fields of the UI information: what the library collects has empty fields, what a remote collector returns for it has not. -/
theorem C114_ui_refuted : ∃ (m : Metadata) (infos : AMap UIInfo) (u : UIInfo) (u' : JUI), collectUI none m = .ok infos ∧ AMap.get infos "openid_provider" = some u ∧
    u.toJUI.displayName = "" ∧ u.toJUI.description = "" ∧ UIOk u.toJUI ∧ decUI (uiJV u.toJUI) = some u' ∧
    u'.displayName = "The OP" ∧ u'.description = "good" ∧ u'.extra = [] := by
  let u : UIInfo := ⟨UIInfo.zero.fields, [("display_name", .str "The OP"), ("description", .str "good")]⟩
  refine ⟨Ex.dopm, [("openid_provider", u)], u, _, rfl, rfl, rfl, rfl, ⟨?_, ?_⟩, rfl, rfl, rfl, rfl⟩
  · show (["display_name", "description"] : List String).Nodup
    decide
  · intro k v h
    by_cases h1 : k = "description"
    · subst h1; cases h; exact .inr (.inl ⟨by decide, by decide, _, rfl⟩)
    · by_cases h2 : k = "display_name"
      · subst h2; cases h; exact .inr (.inl ⟨by decide, by decide, _, rfl⟩)
      · exfalso
        have := (jget_none_iff u.toJUI.extra k).mpr
          (by
            intro hk
            rcases List.mem_cons.mp hk with h | h
            · exact h2 h
            · exact h1 (List.mem_singleton.mp h))
        rw [this] at h
        cases h

/-! ## What the library collects -/

/-- What the collector makes: no field assigned, and strings under the names of fields. -/
def UIGood (infos : AMap UIInfo) : Prop := infos.WF ∧ ∀ T u, AMap.get infos T = some u → u.fields = UIInfo.zero.fields ∧ u.extra.WF ∧
  ∀ k v, AMap.get u.extra k = some v → (k ∈ uiTags ∧ k ≠ "keywords") ∧ ∃ s, v = .str s

theorem uiGood_set {infos : AMap UIInfo} (h : UIGood infos) (T : String) {c : String} (hc : c ∈ uiClaims ∨ c = "display_name") (s : String) :
    UIGood (setUIInfo infos T c (.str s)) := by
  have hfind := zero_no_tag (c := c) (hc.imp id .inr)
  have hold : ((AMap.get infos T).getD UIInfo.zero).fields = UIInfo.zero.fields ∧ ((AMap.get infos T).getD UIInfo.zero).extra.WF ∧
      ∀ k v, AMap.get ((AMap.get infos T).getD UIInfo.zero).extra k = some v → (k ∈ uiTags ∧ k ≠ "keywords") ∧ ∃ s, v = .str s := by
    cases hg : AMap.get infos T with
    | none => exact ⟨rfl, by simp [UIInfo.zero, AMap.WF, AMap.keys], by intro k v h; cases h⟩
    | some u => exact h.2 T u hg
  have hct : c ∈ uiTags ∧ c ≠ "keywords" := by
    simp only [uiClaims, List.mem_cons, List.not_mem_nil, or_false] at hc
    rcases hc with (rfl | rfl | rfl | rfl) | rfl <;> decide
  unfold setUIInfo UIInfo.set
  rw [hold.1, hfind]
  refine ⟨put_wf h.1 _ _, ?_⟩
  intro T' u' hu'
  rw [put_get] at hu'
  split at hu'
  · cases hu'
    refine ⟨rfl, put_wf hold.2.1 _ _, ?_⟩
    intro k v hv
    rw [put_get] at hv
    split at hv
    · rename_i e; cases hv; exact e ▸ ⟨hct, _, rfl⟩
    · exact hold.2.2 k v hv
  · exact h.2 T' u' hu'

theorem uiGood_fold {c : String} (hc : c ∈ uiClaims ∨ c = "display_name") : ∀ (l : List (String × String)) {infos : AMap UIInfo}, UIGood infos →
    UIGood (l.foldl (fun infos tv => if tv.2 ≠ "" then setUIInfo infos tv.1 c (.str tv.2) else infos) infos) ∧
    UIGood (l.foldl (fun infos tv => setUIInfo infos tv.1 c (.str tv.2)) infos) := by
  intro l
  induction l with
  | nil => intro infos h; exact ⟨h, h⟩
  | cons a l ih =>
    intro infos h
    rw [List.foldl_cons, List.foldl_cons]
    refine ⟨?_, (ih (uiGood_set h _ hc _)).2⟩
    split
    · exact (ih (uiGood_set h _ hc _)).1
    · exact (ih h).1

theorem uiGood_strings (claims : Option (List String)) (m : Metadata) : ∀ (cs : List String), (∀ c ∈ cs, c ∈ uiClaims) → ∀ {infos : AMap UIInfo}, UIGood infos →
    UIGood (cs.foldl (fun infos c =>
      if wanted claims c then (m.iterateString c).foldl (fun infos tv => setUIInfo infos tv.1 c (.str tv.2)) infos else infos) infos) := by
  intro cs
  induction cs with
  | nil => intro _ infos h; exact h
  | cons c cs ih =>
    intro hcs infos h
    rw [List.foldl_cons]
    apply ih (fun c hc => hcs c (List.mem_cons_of_mem _ hc))
    split
    · exact (uiGood_fold (.inl (hcs c List.mem_cons_self)) _ h).2
    · exact h

theorem uiGood_collect {claims : Option (List String)} {m : Metadata} {infos : AMap UIInfo} (h : collectUI claims m = .ok infos) : UIGood infos := by
  rw [collectUI_eq h]
  have h0 : UIGood [] := ⟨by simp [AMap.WF, AMap.keys], by intro T u h; cases h⟩
  split
  · exact (uiGood_fold (.inr rfl) _ (uiGood_strings claims m uiClaims (fun _ h => h) h0)).1
  · exact uiGood_strings claims m uiClaims (fun _ h => h) h0

theorem uiOk_of_good {u : UIInfo} (h : u.extra.WF ∧ ∀ k v, AMap.get u.extra k = some v → (k ∈ uiTags ∧ k ≠ "keywords") ∧ ∃ s, v = .str s) : UIOk u.toJUI := by
  refine ⟨?_, ?_⟩
  · show (AMap.keys (u.extra.map _)).Nodup
    have h1 : (u.extra.map Prod.fst).Nodup := h.1
    unfold AMap.keys
    rw [List.map_map]
    exact h1
  · intro k v hv
    have hv' : AMap.get (u.extra.map (fun kv => (kv.1, uiValue kv.2))) k = some v := hv
    rw [jget_mapv] at hv'
    obtain ⟨w, hw, rfl⟩ := Option.map_eq_some_iff.mp hv'
    obtain ⟨⟨h1, h2⟩, s, rfl⟩ := h.2 k w hw
    exact .inr (.inl ⟨h1, h2, s, rfl⟩)

/-- **C114** (part): the UI information that the library collects for an entity arrives: in what a remote collector returns, the fields of the UI information for
an entity type are exactly the claims that were requested (or all, if no claims were named) and that the entity publishes. Missing: keywords (see C84). -/
theorem C114_ui_partial (claims : Option (List String)) (m : Metadata) (hm : GoMetadata m) (infos : AMap UIInfo) (h : collectUI claims m = .ok infos) :
    ∃ r, decMap decUI (mapJV uiJV (infos.map (fun tu => (tu.1, tu.2.toJUI)))) = some r ∧ ∀ (t : EType) (s : String), s ≠ "" →
      ((∃ u, AMap.get r t.tag = some u ∧ u.displayName = s) ↔ (claims = none ∨ ∃ cs, claims = some cs ∧ "display_name" ∈ cs) ∧ HasName m t s) ∧
      ((∃ u, AMap.get r t.tag = some u ∧ u.description = s) ↔ (claims = none ∨ ∃ cs, claims = some cs ∧ "description" ∈ cs) ∧ HasString m t "description" s) ∧
      ((∃ u, AMap.get r t.tag = some u ∧ u.logoURI = s) ↔ (claims = none ∨ ∃ cs, claims = some cs ∧ "logo_uri" ∈ cs) ∧ HasString m t "logo_uri" s) ∧
      ((∃ u, AMap.get r t.tag = some u ∧ u.policyURI = s) ↔ (claims = none ∨ ∃ cs, claims = some cs ∧ "policy_uri" ∈ cs) ∧ HasString m t "policy_uri" s) ∧
      ((∃ u, AMap.get r t.tag = some u ∧ u.informationURI = s) ↔
        (claims = none ∨ ∃ cs, claims = some cs ∧ "information_uri" ∈ cs) ∧ HasString m t "information_uri" s) := by
  obtain ⟨hwf, hgood⟩ := uiGood_collect h
  have hwf' : AMap.WF (infos.map (fun tu => (tu.1, tu.2.toJUI)) : AMap JUI) := by
    have h1 : (infos.map Prod.fst).Nodup := hwf
    show (AMap.keys _).Nodup
    unfold AMap.keys
    rw [List.map_map]
    exact h1
  obtain ⟨r, hr, hs⟩ := map_roundtrip (R := SameUI) (f := decUI) (g := uiJV) hwf' (by
    intro kv hkv
    have := jget_of_mem hwf' hkv
    rw [jget_mapv] at this
    obtain ⟨u, hu, he⟩ := Option.map_eq_some_iff.mp this
    rw [← he]
    exact decUI_ui _ (uiOk_of_good (hgood _ _ hu).2))
  refine ⟨r, hr, ?_⟩
  intro t s hne
  have hw : ∀ c, wanted claims c = true ↔ (claims = none ∨ ∃ cs, claims = some cs ∧ c ∈ cs) := by
    intro c
    unfold wanted
    cases claims with
    | none => simp
    | some cs => simp
  have key : ∀ (f : JUI → String) (c : String), (∀ u u', SameUI u u' → f u' = uiText u c (f u)) → (∀ u : UIInfo, u.fields = UIInfo.zero.fields → f u.toJUI = "") →
      ((∃ u, AMap.get r t.tag = some u ∧ f u = s) ↔ uiVal infos t.tag c = some (.str s)) := by
    intro f c hf h0
    have := hs t.tag
    rw [jget_mapv] at this
    unfold uiVal
    cases hg : AMap.get infos t.tag with
    | none =>
      rw [hg] at this
      generalize AMap.get r t.tag = y at this
      cases this
      constructor
      · rintro ⟨_, h, _⟩; cases h
      · intro h; cases h
    | some u =>
      rw [hg] at this
      generalize AMap.get r t.tag = y at this
      cases this with
      | some hsame =>
        rename_i u'
        have h1 := hf _ _ hsame
        rw [h0 u (hgood _ _ hg).1] at h1
        unfold uiText at h1
        rw [show AMap.get u.toJUI.extra c = (AMap.get u.extra c).map uiValue from jget_mapv _ _ _] at h1
        simp only [Option.some.injEq, exists_eq_left']
        rw [h1]
        cases hx : AMap.get u.extra c with
        | none =>
          simp only [Option.map_none]
          exact ⟨fun h => absurd h.symm hne, fun h => by cases h⟩
        | some v =>
          obtain ⟨_, w, rfl⟩ := (hgood _ _ hg).2.2 c v hx
          simp only [Option.map_some, uiValue]
          exact ⟨fun h => by rw [h], fun h => by cases h; rfl⟩
  have hzero : ∀ (u : UIInfo), u.fields = UIInfo.zero.fields → ∀ c ∈ ["display_name", "description", "logo_uri", "policy_uri", "information_uri"], u.text c = "" := by
    intro u hu c hc
    unfold UIInfo.text
    rw [hu]
    simp only [List.mem_cons, List.not_mem_nil, or_false] at hc
    rcases hc with rfl | rfl | rfl | rfl | rfl <;> rfl
  have hstr : ∀ c ∈ uiClaims, uiVal infos t.tag c = some (.str s) ↔ wanted claims c = true ∧ HasString m t c s := by
    intro c hc
    rw [collectUI_val hm h]
    refine and_congr_right fun _ => ?_
    constructor
    · rintro ⟨s', he, ⟨_, h⟩ | ⟨rfl, _⟩⟩
      · cases he; exact h
      · exact absurd hc (by decide)
    · exact fun h => ⟨s, rfl, .inl ⟨hc, h⟩⟩
  refine ⟨?_, ?_, ?_, ?_, ?_⟩
  · rw [key JUI.displayName "display_name" (fun _ _ h => h.displayName) (fun u hu => hzero u hu _ (by decide)), ← hw, collectUI_val hm h]
    refine and_congr_right fun _ => ?_
    constructor
    · rintro ⟨s', he, ⟨hc, _⟩ | ⟨_, h⟩⟩
      · exact absurd hc (by decide)
      · cases he; exact h
    · exact fun h => ⟨s, rfl, .inr ⟨rfl, h⟩⟩
  · rw [key JUI.description "description" (fun _ _ h => h.description) (fun u hu => hzero u hu _ (by decide)), ← hw]
    exact hstr _ (by decide)
  · rw [key JUI.logoURI "logo_uri" (fun _ _ h => h.logoURI) (fun u hu => hzero u hu _ (by decide)), ← hw]
    exact hstr _ (by decide)
  · rw [key JUI.policyURI "policy_uri" (fun _ _ h => h.policyURI) (fun u hu => hzero u hu _ (by decide)), ← hw]
    exact hstr _ (by decide)
  · rw [key JUI.informationURI "information_uri" (fun _ _ h => h.informationURI) (fun u hu => hzero u hu _ (by decide)), ← hw]
    exact hstr _ (by decide)

/-! ## Cases that meet the hypotheses -/

namespace ExC

/-- A collected OP with a trust mark, a trust chain, UI information and an additional claim, and a nil pointer. -/
def coll (raw : String) : JCollection where
  entities := some [some ⟨"https://op.example", some [⟨"https://tm.example", "ey", []⟩], some [some ⟨raw, ExR.jws⟩], none, some ["openid_provider"],
    [("openid_provider", ⟨"The OP", "", some ["k"], "", "", "", [("x", .num 1), ("description", .str "good")]⟩)], [("y", .bool true)]⟩, none]
  next := "https://next.example"
  updated := some 1700000000123456789
  extra := []

theorem coll_ok {P : String → Option Jws} {raw : String} (h : P raw = some ExR.jws) : CollectionOk P (coll raw) where
  entities := by
    intro e he x hx
    subst hx
    rcases List.mem_cons.mp (show some x ∈ [_, _] from he) with h1 | h1
    · cases h1
      constructor
      · intro m hm
        rw [List.mem_singleton.mp (show m ∈ [some ⟨raw, ExR.jws⟩] from hm)]
        exact ⟨_, rfl, h⟩
      · intro i hi
        rw [List.mem_singleton.mp (show i ∈ [_] from hi)]
        exact ⟨by simp [AMap.WF, AMap.keys], by intro k hk; cases hk⟩
      · refine ⟨by simp [AMap.WF, AMap.keys], ?_⟩
        intro tu htu
        rw [List.mem_singleton.mp (show tu ∈ [_] from htu)]
        refine ⟨by simp [AMap.WF, AMap.keys], ?_⟩
        intro k v hv
        by_cases h1 : k = "x"
        · subst h1
          exact .inl (show ∀ t ∈ uiTags, foldName t ≠ foldName "x" by decide)
        · by_cases h2 : k = "description"
          · subst h2; cases hv; exact .inr (.inl ⟨by decide, by decide, _, rfl⟩)
          · exfalso
            rw [jget_cons, if_neg (by simpa using Ne.symm h1), jget_cons, if_neg (by simpa using Ne.symm h2)] at hv
            cases hv
      · exact ⟨by simp [AMap.WF, AMap.keys], show ∀ k ∈ ["y"], ∀ t ∈ entityTags, foldName t ≠ foldName k by decide⟩
    · cases List.mem_singleton.mp h1
  updated := by intro t ht; cases ht; show |(1700000000123456789 : Int)| ≤ 2 ^ 62; decide

/-- The response is sent and read. -/
example (P : String → Option Jws) (raw : String) (h : P raw = some ExR.jws) : ∃ l e, (coll raw).write = .ok l ∧
    collectFrom P (some (200, "", some l)) = some [some e, none] ∧ e.id = "https://op.example" ∧ e.chain.getD [] = [some ⟨raw, ExR.jws⟩] := by
  obtain ⟨l, d, h1, _, _, h4⟩ := C114_collected_partial P _ (coll_ok h) 200 (by decide) ""
  generalize hes : collectFrom P (some (200, "", some l)) = es at h4
  cases es with
  | none => cases h4
  | some es =>
    cases h4 with
    | some h4 =>
      match es, h4 with
      | [], h4 => cases h4 0
      | [some e, none], h4 =>
        cases h4 0 with
        | some h5 => cases h5 with
          | some h5 => exact ⟨l, e, h1, hes, h5.id, h5.chain⟩
      | none :: _, h4 => cases h4 0 with
        | some h5 => cases h5
      | [some _], h4 => cases h4 1
      | some _ :: some _ :: _, h4 => cases h4 1 with
        | some h5 => cases h5
      | some _ :: none :: _ :: _, h4 => cases h4 2

/-- Two entities, one of them nil. -/
example (P : String → Option Jws) (raw : String) (h : P raw = some ExR.jws) (l : JObj) (hl : (coll raw).write = .ok l) (q : FullReq) :=
  C114_ids_types_partial P ⟨JKey.key, fun _ => 0⟩ _ (coll_ok h) _ rfl l hl (fun _ _ => (JCollection.read P l).map (JCollection.toResponse _)) "c" q rfl

/-- The name and the description of the example arrive in their fields. -/
example : ∃ infos r u, collectUI none Ex.dopm = .ok infos ∧ decMap decUI (mapJV uiJV (infos.map (fun tu => (tu.1, tu.2.toJUI)))) = some r ∧
    AMap.get r "openid_provider" = some u ∧ u.displayName = "The OP" ∧ u.description = "good" := ⟨_, _, _, rfl, rfl, rfl, rfl, rfl⟩

end ExC

end Oidfed
