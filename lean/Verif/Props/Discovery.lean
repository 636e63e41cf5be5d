import Verif.Lemmas.Discovery
import Verif.Props.Collector
/-!
# Filters, UI information and remote collection (C48, C78-C88)
-/

namespace Oidfed
open Oidfed.Spec

/-! ## C48, C78: filtering -/

/-- **C48**: whatever was collected, whatever the filters are: if all entities are there, and no filter and no resolution panics, the result
is, in the same order, what was collected without the entities that have no valid chain or do not pass one of the filters. -/
theorem C48_filter_exact (R : DResolver) (anchor : ID) (fs : List EFilter) (es : List Collected) (valid : Collected → Bool)
    (pass : EFilter → Collected → Bool) (hv : ∀ e ∈ es, R.possible e.id [anchor] = .ok (valid e))
    (hf : ∀ f ∈ fs, ∀ e ∈ es, f (some e) = .ok (pass f e)) :
    verifiedCollect R anchor fs (es.map some) = .ok ((es.filter (fun e => valid e && fs.all (fun f => pass f e))).map some) := by
  have hall : ∀ e ∈ es, ∀ gs : List EFilter, (∀ f ∈ gs, f (some e) = .ok (pass f e)) → approveLoop (some e) true gs = .ok (gs.all (fun f => pass f e)) := by
    intro e _ gs
    induction gs with
    | nil => intro _; rfl
    | cons g gs ih =>
      intro h
      unfold approveLoop
      rw [h g List.mem_cons_self]
      cases hp : pass g e with
      | true => simp only [List.all_cons, hp, Bool.true_and]; exact ih (fun f hf => h f (List.mem_cons_of_mem _ hf))
      | false => simp [hp]
  have hone : ∀ e ∈ es, approveLoop (some e) false (verifiedChains R [anchor] :: fs) = .ok (valid e && fs.all (fun f => pass f e)) := by
    intro e he
    unfold approveLoop
    simp only [verifiedChains, hv e he]
    cases hval : valid e with
    | true => simp only [Bool.true_and]; exact hall e he fs (fun f h => hf f h e he)
    | false => rfl
  unfold verifiedCollect
  clear hall hf hv
  induction es with
  | nil => rfl
  | cons e es ih =>
    simp only [List.map_cons]
    unfold filterCollected
    rw [hone e List.mem_cons_self, ih (fun x hx => hone x (List.mem_cons_of_mem _ hx))]
    simp only [List.filter_cons]
    split <;> rfl

/-- **C48**, with the local resolver: an entity is returned exactly if it was collected, passes the filters, and the resolution for it gives a
valid chain to the anchor. -/
theorem C48_verified_chains (E : Env) (pos : ID → CallPos) (R : DResolver) (anchor : ID) (fs : List EFilter) (es : List Collected)
    (pass : EFilter → Collected → Bool)
    (hR : ∀ e ∈ es, ∃ cs, (Req.mk e.id [anchor] []).resolver.validChains (E.world (pos e.id)) E.depth = .ok (some cs))
    (hloc : ∀ e ∈ es, ∃ b, R.possible e.id [anchor] = .ok b ∧ localPossible E (pos e.id) ⟨e.id, [anchor], []⟩ = some (.ok (b, !b)))
    (hf : ∀ f ∈ fs, ∀ e ∈ es, f (some e) = .ok (pass f e)) :
    ∃ out : List Collected, verifiedCollect R anchor fs (es.map some) = .ok (out.map some) ∧ out.Sublist es ∧
      ∀ e, e ∈ out ↔ e ∈ es ∧ (∀ f ∈ fs, pass f e = true) ∧
        ∃ cs c, (Req.mk e.id [anchor] []).resolver.validChains (E.world (pos e.id)) E.depth = .ok (some cs) ∧ c ∈ cs := by
  refine ⟨_, C48_filter_exact R anchor fs es (fun e => match R.possible e.id [anchor] with
    | .ok b => b
    | .error _ => false) pass ?_ hf, List.filter_sublist, ?_⟩
  · intro e he
    obtain ⟨b, hb, _⟩ := hloc e he
    rw [hb]
  · intro e
    rw [List.mem_filter]
    refine and_congr_right fun he => ?_
    obtain ⟨b, hb, hl⟩ := hloc e he
    obtain ⟨cs, hcs⟩ := hR e he
    unfold localPossible at hl
    rw [hcs] at hl
    simp only [Option.some.injEq, Except.ok.injEq, Prod.mk.injEq] at hl
    simp only [hb, Bool.and_eq_true, List.all_eq_true, hcs, Except.ok.injEq, Option.some.injEq]
    rw [← hl.1, and_comm]
    refine and_congr_right fun _ => ?_
    cases cs with
    | nil =>
      constructor
      · intro h; cases h
      · rintro ⟨_, c, rfl, h⟩; cases h
    | cons c cs => exact ⟨fun _ => ⟨_, c, rfl, List.mem_cons_self⟩, fun _ => rfl⟩

namespace Ex

/-- A resolver that knows of valid chains for "a" and "c". -/
def dres : DResolver := ⟨fun x _ => .ok (x == "a" || x == "c"), fun _ _ => .ok none⟩

/-- Metadata of an OP with a name and a description. -/
def dopm : Metadata :=
  ⟨fun t => if t = .op then some ⟨[⟨"DisplayName", "display_name", .str, .str "The OP"⟩, ⟨"Description", "description", .str, .str "good"⟩,
    ⟨"Keywords", "keywords", .slice .str, .slice .str false [.str "k"]⟩,
    ⟨"GrantTypesSupported", "grant_types_supported", .slice .str, .slice .str false [.str "authorization_code", .str "implicit"]⟩,
    ⟨"LogoURI", "logo_uri", .str, .str ""⟩], [], []⟩ else none, none⟩

def coll (id : ID) : Collected := ⟨id, ["openid_provider"], some dopm⟩

/-- Four entities, of which "b" and "d" have no chain, and "c" is no OP. -/
def colls : List Collected := [coll "d", coll "a", coll "b", ⟨"c", ["oauth_client"], none⟩]

end Ex

/-- The hypotheses of C48 are met; only "a" remains. -/
example : (∀ e ∈ Ex.colls, Ex.dres.possible e.id ["t"] = .ok (e.id == "a" || e.id == "c")) ∧
    (∀ f ∈ [filterOPs], ∀ e ∈ Ex.colls, f (some e) = .ok (e.types.contains "openid_provider")) ∧
    verifiedCollect Ex.dres "t" [filterOPs] (Ex.colls.map some) = .ok [some (Ex.coll "a")] :=
  ⟨fun _ _ => rfl, by intro f hf e _; cases List.mem_singleton.mp hf; rfl, rfl⟩

/-- **C78** (part): filtering what a remote collector returned does not panic if all elements are there, the resolver does not panic, and the
filters are those of the library. Missing: elements that are null. -/
theorem C78_no_panic_partial (R : DResolver) (anchor : ID) (needed : List String) (es : List Collected)
    (hR : ∀ e as, R.possible e as ≠ .error .panic ∧ R.metadata e as ≠ .error .panic) (fs : List EFilter)
    (hfs : ∀ f ∈ fs, f = filterOPs ∨ f = filterGrantTypes R [anchor] needed ∨ f = filterScopes R [anchor] needed ∨ f = filterExplicit R [anchor] ∨
      f = filterAutomatic R [anchor]) :
    verifiedCollect R anchor fs (es.map some) ≠ .error .panic := by
  have hop : ∀ test e, opFilter R [anchor] test e ≠ .error .panic := by
    intro test e h
    cases e with
    | none => cases h
    | some e =>
      unfold opFilter collectedMetadata at h
      cases hm : e.metadata with
      | some m =>
        simp only [hm] at h
        split at h <;> cases h
      | none =>
        simp only [hm] at h
        cases hr : R.metadata e.id [anchor] with
        | error x =>
          simp only [hr, Except.error.injEq] at h
          exact (hR e.id [anchor]).2 (hr.trans (congrArg _ h))
        | ok o =>
          simp only [hr] at h
          cases o with
          | none => cases h
          | some m =>
            simp only at h
            split at h <;> cases h
  have hf : ∀ f ∈ verifiedChains R [anchor] :: fs, ∀ e, f (some e) ≠ .error .panic := by
    intro f hf e
    rcases List.mem_cons.mp hf with rfl | hf
    · exact (hR e.id [anchor]).1
    · rcases hfs f hf with rfl | rfl | rfl | rfl | rfl
      · intro h; cases h
      all_goals exact hop _ _
  have hloop : ∀ (gs : List EFilter) b e, (∀ f ∈ gs, f (some e) ≠ .error .panic) → approveLoop (some e) b gs ≠ .error .panic := by
    intro gs
    induction gs with
    | nil => intro b e _ h; cases h
    | cons g gs ih =>
      intro b e hg h
      unfold approveLoop at h
      split at h
      · rename_i x hx
        cases h
        exact hg g List.mem_cons_self hx
      · exact ih _ _ (fun f hf => hg f (List.mem_cons_of_mem _ hf)) h
      · cases h
  unfold verifiedCollect
  induction es with
  | nil => intro h; cases h
  | cons e es ih =>
    intro h
    simp only [List.map_cons] at h
    unfold filterCollected at h
    split at h
    · rename_i x hx
      cases h
      exact hloop _ _ e (fun f hg => hf f hg e) hx
    · split at h
      · rename_i x hx
        cases h
        exact ih hx
      · cases h

/-- **C78 fails**: a remote collector whose answer contains `null` makes filtering panic, whatever the resolver is. -/
theorem C78_null_entity_refuted (R : DResolver) : ∃ (http : String → List (String × String) → Option ColResponse) (q : FullReq) (es : List (Option Collected)),
    remoteCollect http "c" q = some es ∧ verifiedCollect R q.anchor [] es = .error .panic :=
  ⟨fun _ _ => some ⟨some [none], ""⟩, ⟨"", 0, [], "t", none, "", none⟩, [none], rfl, rfl⟩

example : ∀ e as, Ex.dres.possible e as ≠ .error .panic ∧ Ex.dres.metadata e as ≠ .error .panic :=
  fun _ _ => ⟨(by intro h; cases h), (by intro h; cases h)⟩

/-! ## C79, C80: OPs -/

theorem strs_iff {em : EntityMeta} (hg : GoStruct em) {c v : String} : (em.strs c).contains v = true ↔ ListsString em c v := by
  have hmem : ∀ vs : List Val, v ∈ vs.filterMap (fun v => match v with
      | .str s => some s
      | _ => none) ↔ Val.str v ∈ vs := by
    intro vs
    rw [List.mem_filterMap]
    constructor
    · rintro ⟨x, hx, h⟩
      split at h
      · cases h; exact hx
      · cases h
    · exact fun h => ⟨_, h, rfl⟩
  rw [List.contains_iff_mem]
  unfold EntityMeta.strs
  constructor
  · intro h
    split at h
    · rename_i n tg ty b vs hfind
      refine ⟨_, List.mem_of_find?_eq_some hfind, by simpa using List.find?_some hfind, b, vs, rfl, (hmem vs).mp h⟩
    · cases h
  · rintro ⟨f, hf, rfl, b, vs, hval, hv⟩
    have := find_tag hg.tags hf (fun _ => true) rfl
    simp only [Bool.and_true] at this
    rw [this]
    obtain ⟨n, tg, ty, val⟩ := f
    simp only at hval
    subst hval
    exact (hmem vs).mpr hv

theorem opFilter_iff {R : DResolver} {anchors : List ID} {e : Collected} {test : EntityMeta → Bool} {T : EntityMeta → Prop}
    (h : ∀ m op, (e.metadata = some m ∨ R.metadata e.id anchors = .ok (some m)) → m.known .op = some op → (test op = true ↔ T op)) :
    opFilter R anchors test (some e) = .ok true ↔ IsOP R anchors e T := by
  have hmeta : ∀ m, collectedMetadata R anchors e = .ok (some m) ↔ e.metadata = some m ∨ (e.metadata = none ∧ R.metadata e.id anchors = .ok (some m)) := by
    intro m
    unfold collectedMetadata
    cases hm : e.metadata with
    | none => simp
    | some m' => simp
  unfold IsOP opFilter
  constructor
  · intro ho
    dsimp only at ho
    split at ho
    · cases ho
    · cases ho
    · rename_i m hm
      have hm' := (hmeta m).mp hm
      split at ho
      · cases ho
      · rename_i op hop
        refine ⟨m, op, hm', hop, (h m op (hm'.imp id (·.2)) hop).mp ?_⟩
        simpa using ho
  · rintro ⟨m, op, hm, hop, hT⟩
    dsimp only
    rw [(hmeta m).mpr hm]
    simp only [hop]
    rw [(h m op (hm.imp id (·.2)) hop).mpr hT]

/-- **C79**: the filter for grant types accepts exactly the OPs whose metadata lists all of them. -/
theorem C79_grant_types (R : DResolver) (anchors : List ID) (needed : List String) (e : Collected)
    (hm : ∀ m, (e.metadata = some m ∨ R.metadata e.id anchors = .ok (some m)) → GoMetadata m) :
    filterGrantTypes R anchors needed (some e) = .ok true ↔
      IsOP R anchors e (fun op => ∀ g ∈ needed, ListsString op "grant_types_supported" g) :=
  opFilter_iff (fun m op h ho => by simp only [List.all_eq_true, strs_iff (hm m h _ _ ho)])

/-- **C79**: the filter for scopes. -/
theorem C79_scopes (R : DResolver) (anchors : List ID) (needed : List String) (e : Collected)
    (hm : ∀ m, (e.metadata = some m ∨ R.metadata e.id anchors = .ok (some m)) → GoMetadata m) :
    filterScopes R anchors needed (some e) = .ok true ↔
      IsOP R anchors e (fun op => ∀ g ∈ needed, ListsString op "scopes_supported" g) :=
  opFilter_iff (fun m op h ho => by simp only [List.all_eq_true, strs_iff (hm m h _ _ ho)])

/-- **C79**: the filters for explicit and automatic registration. -/
theorem C79_registration (R : DResolver) (anchors : List ID) (e : Collected)
    (hm : ∀ m, (e.metadata = some m ∨ R.metadata e.id anchors = .ok (some m)) → GoMetadata m) :
    (filterExplicit R anchors (some e) = .ok true ↔ IsOP R anchors e (fun op => ListsString op "client_registration_types_supported" "explicit")) ∧
    (filterAutomatic R anchors (some e) = .ok true ↔ IsOP R anchors e (fun op => ListsString op "client_registration_types_supported" "automatic")) :=
  ⟨opFilter_iff (fun m _ h ho => strs_iff (hm m h _ _ ho)), opFilter_iff (fun m _ h ho => strs_iff (hm m h _ _ ho))⟩

/-- **C79** (part): if the request names no claims, or names `entity_types`, the filter for OPs accepts what the collector collected exactly if the entity has
metadata for an OP. -/
theorem C79_ops_partial (claims : Option (List String)) (id : ID) (m : Metadata) (resolved : Option Metadata)
    (hc : claims = none ∨ ∃ cs, claims = some cs ∧ "entity_types" ∈ cs) :
    filterOPs (some (collectedOf claims id m resolved)) = .ok true ↔ (m.known .op).isSome := by
  have hw : wanted claims "entity_types" = true := by
    rcases hc with rfl | ⟨cs, rfl, h⟩
    · rfl
    · exact List.contains_iff_mem.mpr h
  simp only [filterOPs, collectedOf, hw, if_true, Except.ok.injEq, List.contains_iff_mem, Metadata.entityTypes, List.mem_map, List.mem_filter]
  constructor
  · rintro ⟨t, ⟨_, ht⟩, h⟩
    have : t = .op := etype_tag_inj h
    exact this ▸ ht
  · exact fun h => ⟨.op, ⟨mem_etypes _, h⟩, rfl⟩

/-- **C79 fails** for other claims: an OP is not accepted by the filter for OPs. -/
theorem C79_ops_refuted : ¬ ∀ (claims : Option (List String)) (id : ID) (m : Metadata) (resolved : Option Metadata),
    (filterOPs (some (collectedOf claims id m resolved)) = .ok true ↔ (m.known .op).isSome) := by
  intro h
  have := (h (some ["description"]) "a" Ex.dopm none).mpr rfl
  simp only [Except.ok.injEq, filterOPs] at this
  revert this
  decide

theorem Ex.dopm_go : GoMetadata Ex.dopm := by
  intro t em h
  cases t <;> first | (simp [Ex.dopm] at h; done) | skip
  simp only [Ex.dopm, if_true, Option.some.injEq] at h
  subst h
  refine ⟨by decide, ?_⟩
  intro f hf
  simp only [List.mem_cons, List.not_mem_nil, or_false] at hf
  rcases hf with rfl | rfl | rfl | rfl | rfl <;> simp

/-- An OP that meets the hypotheses of C79, for which the filter is true, and one for which it is false. -/
example : (∀ m, ((Ex.coll "a").metadata = some m ∨ Ex.dres.metadata "a" ["t"] = .ok (some m)) → GoMetadata m) ∧
    filterGrantTypes Ex.dres ["t"] ["implicit"] (some (Ex.coll "a")) = .ok true ∧
    filterGrantTypes Ex.dres ["t"] ["implicit", "password"] (some (Ex.coll "a")) = .ok false := by
  refine ⟨?_, rfl, rfl⟩
  rintro m (h | h)
  · cases h; exact Ex.dopm_go
  · cases h

/-- **C80**: the collector for OPs, in all schedules: when it has returned, an id has been collected exactly if it is listed by an entity reachable
from the anchor, has metadata for an OP, and passes the other criteria; requested types do not matter. -/
theorem C80_ops_exact (E : CollectEnv) (q : CollectReq) {s : CState}
    (h : CRun maxCollectWorkers (E.world (opsOnly q)) CState.new q.anchor s) {r : CFrame} (hr : s.frames[0]? = some r)
    (hret : r.phase = .returned) (x : ID) : x ∈ r.out ↔ Member (Lists E) q.anchor x ∧
      ∃ st m, E.ec x = some st ∧ st.metadata = some m ∧ (m.known .op).isSome ∧ NamePass E q m ∧ MarksPass E q st := by
  rw [C46_exact E (opsOnly q) (idle_new _) h hr hret x]
  refine and_congr_right fun _ => exists_congr fun st => exists_congr fun m => and_congr_right fun _ => and_congr_right fun _ => ?_
  refine and_congr ?_ Iff.rfl
  constructor
  · intro ht
    obtain ⟨t, ht, k, hk, hs⟩ := ht ["openid_provider"] rfl
    cases List.mem_singleton.mp ht
    have : k = .op := etype_tag_inj hk
    exact this ▸ hs
  · intro hs ts hts
    cases hts
    exact ⟨_, List.mem_singleton.mpr rfl, .op, rfl, hs⟩

/-- "t" lists the OP "a", and "d", which is no OP. -/
def Ex.openv : CollectEnv :=
  { Ex.cenv2 with
    ec := fun id => if id = "t" then some (Ex.listEC "t" "t/list") else if id = "a" then some { Ex.mk "a" "a" (some [1]) 1 with metadata := some Ex.dopm } else
      some (Ex.listEC id "")
    listAt := fun e => if e = "t/list" then some ["a", "d"] else none }

/-- A complete run of the collector for OPs, which finds "a". -/
example : ∃ s r, CRun maxCollectWorkers (Ex.openv.world (opsOnly (Ex.creq "t"))) CState.new (Ex.creq "t").anchor s ∧ s.frames[0]? = some r ∧
    r.phase = .returned ∧ r.out = ["a"] :=
  ⟨_, _, Ex.cexec_run [.a 0, .a 0, .a 0, .a 0, .a 0, .a 0, .a 0, .a 0, .s 0 1, .s 0 0, .s 0 0, .s 0 1, .s 0 1, .s 0 1, .s 0 0, .s 0 0, .s 0 0, .c 0, .c 0]
    .init rfl, rfl, rfl, rfl⟩

/-! ## C81-C83: remote collection -/

theorem paramsOf_append (a b : List (String × String)) (k : String) : paramsOf (a ++ b) k = paramsOf a k ++ paramsOf b k := by
  simp [paramsOf]

theorem paramsOf_same (l : List String) (k : String) : paramsOf (l.map (fun t => (k, t))) k = l := by
  induction l with
  | nil => rfl
  | cons a l ih => simpa [paramsOf] using ih

theorem paramsOf_other (l : List String) {k k' : String} (h : k' ≠ k) : paramsOf (l.map (fun t => (k', t))) k = [] := by
  induction l with
  | nil => rfl
  | cons a l ih => simp [paramsOf, h]

theorem paramOf_head (ps : List (String × String)) (k : String) : paramOf ps k = (paramsOf ps k).headD "" := rfl

/-- **C81** (part): if there is no name query, the server receives exactly what was asked for. Missing: name queries. -/
theorem C81_transmitted_partial (q : FullReq) (h : q.name = "") : receive q.params = asked q := by
  have e : ∀ k, paramsOf q.params k = paramsOf [("from_entity_id", q.fromID), ("limit", toString q.limit)] k ++
      paramsOf (q.markTypes.map (fun t => ("trust_mark_type", t))) k ++ paramsOf [("trust_anchor", q.anchor)] k ++
      paramsOf ((q.types.getD []).map (fun t => ("entity_type", t))) k ++ paramsOf [("NameQuery", q.name)] k ++
      paramsOf ((q.claims.getD []).map (fun t => ("claims", t))) k := by
    intro k
    simp only [FullReq.params, paramsOf_append]
  unfold receive asked
  simp only [paramOf_head, e]
  simp [paramsOf_same, paramsOf_other, h]
  simp [paramsOf]

/-- **C81 fails** for every name query: it does not arrive. -/
theorem C81_name_query_refuted (q : FullReq) (h : q.name ≠ "") : receive q.params ≠ asked q := by
  intro he
  have hn := congrArg Received.name he
  simp only [receive, asked, paramOf_head] at hn
  have e : paramsOf q.params "name_query" = [] := by
    simp only [FullReq.params, paramsOf_append]
    simp [paramsOf_other]
    simp [paramsOf]
  rw [e] at hn
  exact h hn.symm

example : receive (FullReq.params ⟨"e", 5, ["m1", "m2"], "t", some ["openid_provider"], "", some ["claims", "logo_uri"]⟩) =
    ⟨"e", ["m1", "m2"], "t", ["openid_provider"], "", ["claims", "logo_uri"]⟩ := C81_transmitted_partial _ rfl

/-- **C82** (part): if the first page is the last one, all entities are returned. Missing: more than one page. -/
theorem C82_single_page_partial (http : String → List (String × String) → Option ColResponse) (endpoint : String) (q : FullReq)
    (h : ∀ r, http endpoint q.params = some r → r.next = "") (es : List (Option Collected)) :
    Pages http endpoint q es ↔ remoteCollect http endpoint q = some es := by
  unfold remoteCollect
  constructor
  · intro hp
    cases hp with
    | last hr => rw [hr]
    | more hr hn _ => exact absurd (h _ hr) hn
  · intro he
    cases hr : http endpoint q.params with
    | none => rw [hr] at he; cases he
    | some r =>
      rw [hr] at he
      have hn := h r hr
      obtain ⟨ents, next⟩ := r
      simp only at he hn
      subst he hn
      exact .last hr

/-- **C82 fails**: with two pages only the first one is returned. -/
theorem C82_next_page_refuted : ¬ ∀ (http : String → List (String × String) → Option ColResponse) (endpoint : String) (q : FullReq) (es : List (Option Collected)),
    Pages http endpoint q es → remoteCollect http endpoint q = some es := by
  intro h
  have := h (fun _ ps => if paramOf ps "from_entity_id" = "" then some ⟨some [some (Ex.coll "a")], "b"⟩ else some ⟨some [some (Ex.coll "b")], ""⟩) "c"
    ⟨"", 0, [], "t", none, "", none⟩ _ (.more (es := [some (Ex.coll "a")]) (rest := [some (Ex.coll "b")]) rfl (by decide) (.last rfl))
  simp only [remoteCollect] at this
  have := congrArg (Option.map List.length) this
  revert this
  decide

example : Pages (fun _ _ => some ⟨some [some (Ex.coll "a")], ""⟩) "c" ⟨"", 0, [], "t", none, "", none⟩ [some (Ex.coll "a")] := .last rfl

theorem collection_at {s : Stmt} {ep : String} : CollectionAt s ep ↔ ep ≠ "" ∧ s.collectionEndpoint = ep := by
  unfold CollectionAt Stmt.collectionEndpoint
  refine and_congr_right fun hne => ?_
  constructor
  · rintro ⟨m, f, h1, h2, h3⟩
    simp only [h1, h2, h3]
  · intro h
    split at h
    · exact absurd h.symm hne
    · rename_i m hm
      split at h
      · exact absurd h.symm hne
      · rename_i f hf
        split at h
        · rename_i e he
          exact ⟨m, f, hm, hf, h ▸ he⟩
        · exact absurd h.symm hne

/-- One round of the loop of the smart collector. -/
theorem smart_cons (ec : ID → Option Stmt) (http : String → List (String × String) → Option ColResponse) (q : FullReq) (a : ID) (as : List ID) :
    (∃ es, Answers ec http q a es ∧ smartCollectLoop ec http q (a :: as) = some es) ∨
    ((¬ ∃ es, Answers ec http q a es) ∧ smartCollectLoop ec http q (a :: as) = smartCollectLoop ec http q as) := by
  rw [smartCollectLoop]
  cases hec : ec a with
  | none =>
    right
    refine ⟨?_, rfl⟩
    rintro ⟨es, s, ep, r, h, _⟩
    rw [hec] at h
    cases h
  | some s =>
    by_cases hep : s.collectionEndpoint = ""
    · right
      simp only [hep, if_true, and_true]
      rintro ⟨es, s', ep, r, h, hne, _⟩
      rw [hec] at h
      cases h
      obtain ⟨hne, he⟩ := collection_at.mp hne
      exact hne (he.symm.trans hep)
    · simp only [hep, if_false]
      unfold remoteCollect
      cases hr : http s.collectionEndpoint q.params with
      | none =>
        right
        refine ⟨?_, rfl⟩
        rintro ⟨es, s', ep, r, h, hne, h', _⟩
        rw [hec] at h
        cases h
        rw [(collection_at.mp hne).2] at hr
        rw [hr] at h'
        cases h'
      | some r =>
        cases hes : r.entities with
        | none =>
          right
          simp only [hes, and_true]
          rintro ⟨es, s', ep, r', h, hne, h', h''⟩
          rw [hec] at h
          cases h
          rw [(collection_at.mp hne).2] at hr
          rw [hr] at h'
          cases h'
          rw [hes] at h''
          cases h''
        | some es =>
          left
          exact ⟨es, ⟨s, _, r, hec, collection_at.mpr ⟨hep, rfl⟩, hr, hes⟩, by simp [hes]⟩

theorem smart_loop (ec : ID → Option Stmt) (http : String → List (String × String) → Option ColResponse) (q : FullReq) (as : List ID) :
    (∃ pre a post es, as = pre ++ a :: post ∧ (∀ b ∈ pre, ¬ ∃ es, Answers ec http q b es) ∧ Answers ec http q a es ∧
      smartCollectLoop ec http q as = some es) ∨
    ((∀ b ∈ as, ¬ ∃ es, Answers ec http q b es) ∧ smartCollectLoop ec http q as = none) := by
  induction as with
  | nil => right; exact ⟨by simp, rfl⟩
  | cons a as ih =>
    rcases smart_cons ec http q a as with ⟨es, ha, he⟩ | ⟨hno, he⟩
    · left; exact ⟨[], a, as, es, rfl, by simp, ha, he⟩
    · rcases ih with ⟨pre, b, post, es, rfl, hpre, hb, hl⟩ | ⟨hall, hl⟩
      · left
        refine ⟨a :: pre, b, post, es, rfl, ?_, hb, he.trans hl⟩
        intro x hx
        rcases List.mem_cons.mp hx with rfl | hx
        · exact hno
        · exact hpre x hx
      · right
        refine ⟨?_, he.trans hl⟩
        intro x hx
        rcases List.mem_cons.mp hx with rfl | hx
        · exact hno
        · exact hall x hx

/-- **C83**: the smart collector returns what the first anchor's collection endpoint answers, beginning with the anchor of the request and
then going through the other configured anchors in order; only if none of them answers it collects by itself. -/
theorem C83_first_answer (anchors : List ID) (ec : ID → Option Stmt) (http : String → List (String × String) → Option ColResponse)
    (simple : FullReq → List (Option Collected)) (q : FullReq) :
    (∃ pre a post es, q.anchor :: anchors.filter (· ≠ q.anchor) = pre ++ a :: post ∧ (∀ b ∈ pre, ¬ ∃ es, Answers ec http q b es) ∧
      Answers ec http q a es ∧ smartCollect anchors ec http simple q = es) ∨
    ((¬ ∃ b es, (b = q.anchor ∨ b ∈ anchors) ∧ Answers ec http q b es) ∧ smartCollect anchors ec http simple q = simple q) := by
  have hrm : removeFromSlice anchors q.anchor = anchors.filter (· ≠ q.anchor) := by
    unfold removeFromSlice
    congr 1
    funext x
    by_cases h : x = q.anchor <;> simp [h]
  unfold smartCollect
  rw [hrm]
  rcases smart_loop ec http q (q.anchor :: anchors.filter (· ≠ q.anchor)) with ⟨pre, a, post, es, h1, h2, h3, h4⟩ | ⟨h1, h2⟩
  · left; exact ⟨pre, a, post, es, h1, h2, h3, by rw [h4]⟩
  · right
    refine ⟨?_, by rw [h2]⟩
    rintro ⟨b, es, hb, ha⟩
    refine h1 b ?_ ⟨es, ha⟩
    by_cases e : b = q.anchor
    · exact e ▸ List.mem_cons_self
    · exact List.mem_cons_of_mem _ (List.mem_filter.mpr ⟨hb.resolve_left e, by simpa using e⟩)

/-- A configuration with a collection endpoint. -/
def Ex.colEC (id : ID) : Stmt :=
  { Ex.mk id id (some [1]) 1 with metadata := some ⟨fun t => if t = .fed then some ⟨[], [], [("federation_collection_endpoint", .str (id ++ "/c"))]⟩ else none, none⟩ }

/-- The second anchor answers: the first one has an endpoint, but it is down. -/
example : smartCollect ["u", "t"] (fun id => some (Ex.colEC id)) (fun e _ => if e = "u/c" then some ⟨some [some (Ex.coll "a")], ""⟩ else none) (fun _ => [])
    ⟨"", 0, [], "t", none, "", none⟩ = [some (Ex.coll "a")] := rfl

/-! ## C84-C86: claims of the metadata -/

/-- **C84** (part): in the JSON of the UI information collected for an entity, the members are exactly the claims among description,
logo_uri, policy_uri and information_uri that were requested (or all, if no claims were named) and are non-empty strings in the metadata, and
the name. Missing: keywords. -/
theorem C84_shown_partial (claims : Option (List String)) (m : Metadata) (hm : GoMetadata m) (infos : AMap UIInfo) (h : collectUI claims m = .ok infos)
    (t : EType) (c : String) (v : Val) : UIShows infos t c v ↔
      (claims = none ∨ ∃ cs, claims = some cs ∧ c ∈ cs) ∧ ∃ s, v = .str s ∧
        ((c ∈ ["description", "logo_uri", "policy_uri", "information_uri"] ∧ HasString m t c s) ∨ (c = "display_name" ∧ HasName m t s)) := by
  rw [uiShows_iff (collectUI_clean hm h), collectUI_val hm h]
  refine and_congr ?_ Iff.rfl
  unfold wanted
  cases claims with
  | none => simp
  | some cs => simp

/-- The metadata of the example is shown; the empty logo_uri is not. -/
example : ∃ infos, collectUI none Ex.dopm = .ok infos ∧ UIShows infos .op "description" (.str "good") ∧ UIShows infos .op "display_name" (.str "The OP") ∧
    ¬ ∃ v, UIShows infos .op "logo_uri" v := by
  refine ⟨_, rfl, ⟨_, rfl, rfl⟩, ⟨_, rfl, rfl⟩, ?_⟩
  rintro ⟨v, u, hu, hv⟩
  have h1 := (C84_shown_partial none Ex.dopm Ex.dopm_go _ rfl .op "logo_uri" v).mp ⟨u, hu, hv⟩
  obtain ⟨_, s, _, ⟨_, hs, em, f, hk, hf, ht, _, hval⟩ | ⟨hc, _⟩⟩ := h1
  · cases hk
    simp only [List.mem_cons, List.not_mem_nil, or_false] at hf
    rcases hf with rfl | rfl | rfl | rfl | rfl
    · revert ht; decide
    · revert ht; decide
    · revert ht; decide
    · revert ht; decide
    · exact hs (Val.str.inj hval).symm
  · revert hc; decide

/-- **C84 fails** for keywords: they are never shown. -/
theorem C84_keywords_refuted : ¬ ∀ (claims : Option (List String)) (m : Metadata), GoMetadata m → ∀ infos, collectUI claims m = .ok infos →
    ∀ t vs, HasStrings m t "keywords" vs → vs ≠ [] → (claims = none ∨ ∃ cs, claims = some cs ∧ "keywords" ∈ cs) →
      UIShows infos t "keywords" (.slice .str false (vs.map .str)) := by
  intro h
  have := h none Ex.dopm Ex.dopm_go _ rfl .op ["k"] ⟨_, ⟨"Keywords", "keywords", .slice .str, .slice .str false [.str "k"]⟩, rfl, by simp, rfl, rfl, rfl⟩
    (by decide) (.inl rfl)
  obtain ⟨_, s, hs, _⟩ := (C84_shown_partial none Ex.dopm Ex.dopm_go _ rfl .op "keywords" _).mp this
  cases hs

/-- **C84 fails**: in Go, the fields of the UI information are never set. A name that is shown in the JSON is not in the field
`DisplayName`. -/
theorem C84_fields_refuted (claims : Option (List String)) (m : Metadata) (hm : GoMetadata m) (infos : AMap UIInfo) (h : collectUI claims m = .ok infos)
    (T : String) (u : UIInfo) (hu : infos.get T = some u) : ∀ f ∈ u.fields, f.name = "DisplayName" → f.val = .str "" := by
  rw [collectUI_clean hm h T u hu]
  intro f hf hn
  simp only [UIInfo.zero, List.mem_cons, List.not_mem_nil, or_false] at hf
  rcases hf with rfl | rfl | rfl | rfl | rfl | rfl | rfl
  · rfl
  all_goals (exfalso; revert hn; decide)

/-- **C85 fails**: going through the metadata for a list of strings never finds one. -/
theorem C85_never_found_refuted (m : Metadata) (c : String) (l : List (String × List String)) (h : m.iterateSlice c = .ok l) : l = [] := by
  unfold Metadata.iterateSlice at h
  have : ∀ ts l, iterateSliceLoop m c ts = .ok l → l = [] := by
    intro ts
    induction ts with
    | nil => intro l h; simp only [iterateSliceLoop, Except.ok.injEq] at h; exact h.symm
    | cons t ts ih =>
      intro l h
      unfold iterateSliceLoop at h
      split at h
      · exact ih l h
      · split at h
        · exact ih l h
        · cases h
  exact this _ _ h

/-- An entity with a list for the claim. -/
example : HasStrings Ex.dopm .op "keywords" ["k"] ∧ Ex.dopm.iterateSlice "keywords" = .ok [] :=
  ⟨⟨_, ⟨"Keywords", "keywords", .slice .str, .slice .str false [.str "k"]⟩, rfl, by simp, rfl, rfl, rfl⟩, rfl⟩

/-- **C85 fails**: if the claim is a string, it panics. -/
theorem C85_panic_refuted : ∃ m c, GoMetadata m ∧ m.iterateSlice c = .error .panic := ⟨Ex.dopm, "description", Ex.dopm_go, rfl⟩

/-- **C85** (part): it does not panic if no metadata has a string for the claim. -/
theorem C85_no_panic_partial (m : Metadata) (c : String) (h : ∀ t em f, m.known t = some em → f ∈ em.fields → f.tag = c → f.ty ≠ .str) :
    m.iterateSlice c ≠ .error .panic := by
  unfold Metadata.iterateSlice
  generalize EType.all = ts
  induction ts with
  | nil => intro h; cases h
  | cons t ts ih =>
    intro hp
    unfold iterateSliceLoop at hp
    split at hp
    · exact ih hp
    · rename_i em hk
      split at hp
      · exact ih hp
      · rename_i f hf
        have := List.find?_some hf
        simp only [Field.isString, Bool.and_eq_true, beq_iff_eq] at this
        exact h t em f hk (List.mem_of_find?_eq_some hf) this.1 this.2

/-- **C86**: going through the metadata for a string calls the iterator exactly for the entity types whose metadata has a non-empty string for
the claim, with this string, at most once per type. -/
theorem C86_exact (m : Metadata) (hm : GoMetadata m) (c : String) :
    (∀ T v, (T, v) ∈ m.iterateString c ↔ ∃ t : EType, t.tag = T ∧ HasString m t c v) ∧ ((m.iterateString c).map (·.1)).Nodup :=
  ⟨fun _ _ => mem_iterateString hm, iterateString_nodup m c⟩

example : GoMetadata Ex.dopm ∧ Ex.dopm.iterateString "description" = [("openid_provider", "good")] := ⟨Ex.dopm_go, rfl⟩

/-! ## C87, C88: listings -/

/-- **C87** (part): if the endpoint follows the specification, i.e. errors come with an `error` member, then a listing that is returned for a request was
served with success. Missing: other error responses. -/
theorem C87_served_partial (r : Option HttpReply) (h : Honest r) (l : List ID) : httpFetchList r = some l ↔ Served r l := by
  cases r with
  | none => exact ⟨fun h => (by cases h), fun ⟨_, h, _⟩ => (by cases h)⟩
  | some x =>
    unfold httpFetchList
    constructor
    · intro hf
      rcases h with ⟨h1, h2, h3⟩ | h
      · have h4 : ¬ (400 ≤ x.code ∧ x.error ≠ "") := by omega
        obtain ⟨b, hb⟩ := Option.isSome_iff_exists.mp h3
        simp only [h4, if_false, h1, h2, and_self, if_true, hb, Option.getD_some, Option.some.injEq] at hf
        exact ⟨x, rfl, h1, h2, hf ▸ hb⟩
      · simp only [h, ne_eq, not_false_eq_true, and_self, if_true] at hf
        cases hf
    · rintro ⟨x', hx, h1, h2, hb⟩
      cases hx
      have h4 : ¬ (400 ≤ x.code ∧ x.error ≠ "") := by omega
      simp [h4, h1, h2, hb]

/-- **C87 fails**: a server error without an `error` member is taken as an empty listing, which is then remembered: a later request, within the hour, for
which the endpoint would serve a listing, gives the empty one. -/
theorem C87_error_as_empty_refuted : ∃ (reply : Option HttpReply), (¬ ∃ l, Served reply l) ∧ httpFetchList reply = some [] ∧
    (fetchLists some (fun _ => none, []) [(0, "e", reply), (3599 * second, "e", some ⟨200, "", some ["a"]⟩)]).2 =
      [(3599 * second, "e", some []), (0, "e", some [])] := by
  refine ⟨some ⟨503, "", none⟩, ?_, rfl, rfl⟩
  rintro ⟨l, x, hx, h1, h2, _⟩
  cases hx
  simp at h2

example : Honest (some ⟨200, "", some ["a"]⟩) ∧ Honest (some ⟨404, "not_found", none⟩) ∧ Honest none :=
  ⟨.inl (by decide), .inr (by decide), trivial⟩

/-- What is in the cache was fetched. -/
def ListCacheOk (h : List (Time × String × Option HttpReply)) (c : ListCache) : Prop :=
  ∀ ep l exp, c ep = some (l, exp) → ∃ t r, (t, ep, r) ∈ h ∧ httpFetchList r = some l ∧ exp = t + 3600 * second

theorem fetchList_ok {readBack : List ID → Option (List ID)} (hrb : ∀ l, readBack l = some l ∨ readBack l = none) {h : List (Time × String × Option HttpReply)}
    {c : ListCache} (hc : ListCacheOk h c) (now : Time) (ep : String) (reply : Option HttpReply) :
    ListCacheOk (h ++ [(now, ep, reply)]) (fetchList readBack c now ep reply).1 ∧
    ∀ l, (fetchList readBack c now ep reply).2 = some l → ∃ t r, (t, ep, r) ∈ h ++ [(now, ep, reply)] ∧ httpFetchList r = some l ∧ now < t + 3600 * second := by
  have hmono : ListCacheOk (h ++ [(now, ep, reply)]) c := by
    intro e l exp he
    obtain ⟨t, r, h1, h2⟩ := hc e l exp he
    exact ⟨t, r, List.mem_append_left _ h1, h2⟩
  have hmiss : ListCacheOk (h ++ [(now, ep, reply)]) (match httpFetchList reply with
      | none => (c, none)
      | some ids => ((fun e => if e = ep then some (ids, now + listCacheTime) else c e : ListCache), some ids)).1 ∧
      ∀ l, (match httpFetchList reply with
      | none => (c, none)
      | some ids => ((fun e => if e = ep then some (ids, now + listCacheTime) else c e : ListCache), some ids)).2 = some l →
        ∃ t r, (t, ep, r) ∈ h ++ [(now, ep, reply)] ∧ httpFetchList r = some l ∧ now < t + 3600 * second := by
    cases hr : httpFetchList reply with
    | none => exact ⟨hmono, fun l h => by cases h⟩
    | some ids =>
      refine ⟨?_, ?_⟩
      · intro e l exp he
        simp only at he
        split at he
        · rename_i hee
          cases he
          exact ⟨now, reply, List.mem_append_right _ (by simp [hee]), hr, rfl⟩
        · exact hmono e l exp he
      · intro l hl
        cases hl
        refine ⟨now, reply, List.mem_append_right _ (by simp), hr, ?_⟩
        have : (0 : Int) < 3600 * second := by decide
        exact Int.lt_add_of_pos_right _ this
  unfold fetchList
  simp only
  split
  · exact hmiss
  · rename_i ids exp hce
    split
    · rename_i hlt
      split
      · rename_i l hl
        refine ⟨hmono, ?_⟩
        intro l' hl'
        cases hl'
        have : l = ids := by
          rcases hrb ids with h | h
          · rw [h] at hl; cases hl; rfl
          · rw [h] at hl; cases hl
        subst this
        obtain ⟨t, r, h1, h2, h3⟩ := hmono ep l exp hce
        exact ⟨t, r, h1, h2, h3 ▸ hlt⟩
      · exact hmiss
    · exact hmiss

theorem fetchLists_ok {readBack : List ID → Option (List ID)} (hrb : ∀ l, readBack l = some l ∨ readBack l = none)
    (rest : List (Time × String × Option HttpReply)) : ∀ (h : List (Time × String × Option HttpReply)) (c : ListCache)
    (log : List (Time × String × Option (List ID))), ListCacheOk h c →
    (∀ now ep l, (now, ep, some l) ∈ log → ∃ t r, (t, ep, r) ∈ h ∧ httpFetchList r = some l ∧ now < t + 3600 * second) →
    ListCacheOk (h ++ rest) (fetchLists readBack (c, log) rest).1 ∧
    ∀ now ep l, (now, ep, some l) ∈ (fetchLists readBack (c, log) rest).2 →
      ∃ t r, (t, ep, r) ∈ h ++ rest ∧ httpFetchList r = some l ∧ now < t + 3600 * second := by
  induction rest with
  | nil => intro h c log hc hl; simpa [fetchLists] using ⟨hc, hl⟩
  | cons x rest ih =>
    intro h c log hc hl
    obtain ⟨now, ep, reply⟩ := x
    obtain ⟨h1, h2⟩ := fetchList_ok hrb hc now ep reply
    rw [fetchLists]
    have := ih (h ++ [(now, ep, reply)]) _ ((now, ep, (fetchList readBack c now ep reply).2) :: log) h1 (by
      intro now' ep' l hm
      rcases List.mem_cons.mp hm with e | hm
      · simp only [Prod.mk.injEq] at e
        obtain ⟨rfl, rfl, e⟩ := e
        exact h2 l e.symm
      · obtain ⟨t, r, ht, hr⟩ := hl now' ep' l hm
        exact ⟨t, r, List.mem_append_left _ ht, hr⟩)
    rwa [List.append_assoc] at this

/-- **C88** (part): for every sequence of calls on a new cache, if the endpoints follow the specification, each listing that is returned was served by this
endpoint less than an hour before, or later. `readBack` may give what was stored or nothing (e.g. a nil list). Missing: that it was not served later, which
follows if the clock goes forward (below); endpoints that do not follow the specification (C87). -/
theorem C88_fresh_partial (readBack : List ID → Option (List ID)) (hrb : ∀ l, readBack l = some l ∨ readBack l = none)
    (h : List (Time × String × Option HttpReply)) (hh : ∀ x ∈ h, Honest x.2.2) (now : Time) (ep : String) (l : List ID)
    (hl : (now, ep, some l) ∈ (fetchLists readBack (fun _ => none, []) h).2) : ∃ t r, (t, ep, r) ∈ h ∧ Served r l ∧ now < t + 3600 * second := by
  obtain ⟨t, r, h1, h2, h3⟩ := (fetchLists_ok hrb h [] (fun _ => none) [] (fun _ _ _ h => by cases h) (fun _ _ _ h => by cases h)).2 now ep l hl
  exact ⟨t, r, h1, (C87_served_partial r (hh _ h1) l).mp h2, h3⟩

theorem fetchLists_append (readBack : List ID → Option (List ID)) (a b : List (Time × String × Option HttpReply)) (s : ListCache × List (Time × String × Option (List ID))) :
    fetchLists readBack s (a ++ b) = fetchLists readBack (fetchLists readBack s a) b := by
  induction a generalizing s with
  | nil => obtain ⟨c, log⟩ := s; rfl
  | cons x a ih =>
    obtain ⟨c, log⟩ := s
    obtain ⟨now, ep, reply⟩ := x
    rw [List.cons_append, fetchLists, fetchLists, ih]

/-- **C88**: with a clock that goes forward, the last call returns a listing served by this endpoint, then or less than an hour ago. -/
theorem C88_fresh_last_partial (readBack : List ID → Option (List ID)) (hrb : ∀ l, readBack l = some l ∨ readBack l = none)
    (h : List (Time × String × Option HttpReply)) (now : Time) (ep : String) (reply : Option HttpReply)
    (hh : ∀ x ∈ h ++ [(now, ep, reply)], Honest x.2.2) (hclock : ∀ x ∈ h, x.1 ≤ now) (l : List ID)
    (hl : (fetchList readBack (fetchLists readBack (fun _ => none, []) h).1 now ep reply).2 = some l) :
    ∃ t r, (t, ep, r) ∈ h ++ [(now, ep, reply)] ∧ Served r l ∧ t ≤ now ∧ now < t + 3600 * second := by
  have h1 := (fetchLists_ok hrb h [] (fun _ => none) [] (fun _ _ _ h => by cases h) (fun _ _ _ h => by cases h)).1
  rw [List.nil_append] at h1
  obtain ⟨t, r, h2, h3, h4⟩ := (fetchList_ok hrb h1 now ep reply).2 l hl
  refine ⟨t, r, h2, (C87_served_partial r (hh _ h2) l).mp h3, ?_, h4⟩
  rcases List.mem_append.mp h2 with h2 | h2
  · exact hclock _ h2
  · cases List.mem_singleton.mp h2; exact Int.le_refl _

/-- **C88** (age, whatever the endpoints answer): with a clock that goes forward, the last call returns what was read from a reply of this endpoint that arrived then or less than
an hour ago. -/
theorem C88_age (readBack : List ID → Option (List ID)) (hrb : ∀ l, readBack l = some l ∨ readBack l = none)
    (h : List (Time × String × Option HttpReply)) (now : Time) (ep : String) (reply : Option HttpReply) (hclock : ∀ x ∈ h, x.1 ≤ now) (l : List ID)
    (hl : (fetchList readBack (fetchLists readBack (fun _ => none, []) h).1 now ep reply).2 = some l) :
    ∃ t r, (t, ep, r) ∈ h ++ [(now, ep, reply)] ∧ httpFetchList r = some l ∧ t ≤ now ∧ now < t + 3600 * second := by
  have h1 := (fetchLists_ok hrb h [] (fun _ => none) [] (fun _ _ _ h => by cases h) (fun _ _ _ h => by cases h)).1
  rw [List.nil_append] at h1
  obtain ⟨t, r, h2, h3, h4⟩ := (fetchList_ok hrb h1 now ep reply).2 l hl
  refine ⟨t, r, h2, h3, ?_, h4⟩
  rcases List.mem_append.mp h2 with h2 | h2
  · exact hclock _ h2
  · cases List.mem_singleton.mp h2; exact Int.le_refl _

/-- **C88 fails** as it stands, as a consequence of C87: the listing used was never served. -/
theorem C88_never_served_refuted : ∃ (h : List (Time × String × Option HttpReply)) (now : Time) (l : List ID),
    (fetchList some (fetchLists some (fun _ => none, []) h).1 now "e" none).2 = some l ∧ ∀ x ∈ h, ¬ Served x.2.2 l := by
  refine ⟨[(0, "e", some ⟨503, "", none⟩)], 3599 * second, [], rfl, ?_⟩
  intro x hx
  cases List.mem_singleton.mp hx
  rintro ⟨y, hy, h1, h2, _⟩
  cases hy
  simp at h2

/-- After an hour the endpoint is asked again. -/
example : (fetchLists some (fun _ => none, []) [(0, "e", some ⟨200, "", some ["a"]⟩), (3599 * second, "e", some ⟨200, "", some ["b"]⟩),
    (3600 * second, "e", some ⟨200, "", some ["b"]⟩)]).2 = [(3600 * second, "e", some ["b"]), (3599 * second, "e", some ["a"]), (0, "e", some ["a"])] := rfl

end Oidfed
