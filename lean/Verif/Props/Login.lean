import Verif.Spec.Login
import Verif.Props.AuthCode
import Verif.Props.OperatedMarks
import Verif.Props.MarkJws
/-!
# C127: a relying party deals with the provider as the federation describes it
-/

namespace Oidfed
open Spec

theorem str_of_attr {em : EntityMeta} {tag s : String} (h : StrAttr em tag s) : em.str tag = s := by
  obtain ⟨f, hf, ht, hv, huniq⟩ := h
  unfold EntityMeta.str
  cases hfd : em.fields.find? (fun f => f.tag == tag) with
  | none =>
    have := List.find?_eq_none.mp hfd f hf
    simp [ht] at this
  | some g =>
    have h1 := List.find?_some hfd
    have : g = f := huniq g (List.mem_of_find?_eq_some hfd) (by simpa using h1)
    subst this
    obtain ⟨n, t, ty, v⟩ := g
    have : v = .str s := hv
    subst this
    rfl

/-- What `ResolveOPMetadata` returns if nothing is cached. -/
theorem opMetadata_resolved {D : Default} {E : Env} {fuel : Nat} {p : CallPos} {cache : ID → Res (Option OPMeta)} {anchors : List ID} {issuer : ID} {opm : OPMeta}
    (hc : cache issuer = .ok none) (h : opMetadata D E fuel p cache anchors issuer = some (.ok (some opm))) :
    ∃ m em, D.metadata E fuel p ⟨issuer, anchors, ["openid_provider"]⟩ = some (.ok (some m)) ∧ m.known .op = some em ∧ opm = opMetaOf em := by
  unfold opMetadata at h
  rw [hc] at h
  dsimp only at h
  obtain ⟨r, hr, hro⟩ := Option.map_eq_some_iff.mp h
  unfold resolveOPMetadata at hro
  dsimp only at hro
  cases r with
  | error f => cases hro
  | ok o =>
    cases o with
    | none => cases hro
    | some m =>
      simp only [Except.ok.injEq] at hro
      obtain ⟨em, hem, he⟩ := Option.map_eq_some_iff.mp hro
      exact ⟨m, em, hr, hem, he.symm⟩

theorem opMetadata_cached {D : Default} {E : Env} {fuel : Nat} {p : CallPos} {cache : ID → Res (Option OPMeta)} {anchors : List ID} {issuer : ID} {opm : OPMeta}
    (hc : cache issuer = .ok (some opm)) : opMetadata D E fuel p cache anchors issuer = some (.ok (some opm)) := by
  unfold opMetadata
  rw [hc]
  rfl

/-- The user is sent where the metadata found says. -/
theorem url_sends {id : ID} {sign : Signer} {parse : URLParser} {now : Int} {jti : Option String} {op : Res (Option OPMeta)}
    {redirectURI state scope : String} {add : AMap (List String)} (hwf : add.WF) (ho : NoOverflow now 60) {u : URL}
    (h : (newLeaf id).authorizationURL sign parse now jti op redirectURI state scope add = .ok u) :
    ∃ opm, op = .ok (some opm) ∧ SendsUser sign parse opm.issuer opm.authorizationEndpoint u := by
  obtain ⟨opm, ro, claims, h1, _, h2, h3, _, _, h4, _⟩ := C50_protocol_parameters id sign parse now jti op redirectURI state scope add hwf ho u h
  obtain ⟨opm', u0, ro', g1, g2, _, g4⟩ := authorizationURL_ok h
  rw [h1] at g1
  cases g1
  refine ⟨opm, h1, ⟨u0, g2, by rw [g4]⟩, ro, claims, ?_, h3, h4⟩
  intro x
  rw [h2]
  constructor
  · rintro (⟨e, _⟩ | ⟨e, _⟩ | ⟨e, _⟩ | ⟨e, _⟩ | ⟨_, e⟩)
    · exact absurd e (by decide)
    · exact absurd e (by decide)
    · exact absurd e (by decide)
    · exact absurd e (by decide)
    · exact e
  · rintro rfl
    exact .inr (.inr (.inr (.inr ⟨rfl, rfl⟩)))

/-- The code is sent where the metadata found says. -/
theorem exchange_sends {id : ID} {sign : Signer} {post : String → AMap (List String) → Option JV} {now : Int} {jti : Option String} {op : Res (Option OPMeta)}
    {code redirectURI : String} {params : Option (AMap (List String))} (ho : NoOverflow now 60) (opm : OPMeta)
    (hop : ∀ o, op = .ok (some o) → o.tokenEndpoint = opm.tokenEndpoint) :
    SendsCode sign opm.tokenEndpoint code ((newLeaf id).codeExchange sign post now jti op code redirectURI params).sent := by
  intro ep form h
  obtain ⟨o, j, a, claims, h1, h2, _, _, h5, _, _, _, h9, h10, h11, _⟩ := C72_exchange_request id sign post now jti op code redirectURI params ho ep form h
  have := hop o h1
  rw [this] at h2 h11
  exact ⟨h2, h5, a, claims, h9, h10, h11.aud⟩

/-- **C127**: with nothing in the cache, a user is sent to the `authorization_endpoint` in the `openid_provider` metadata that the default resolver finds for the
issuer (whichever resolver that is), with a signed request for the `issuer` in that metadata. -/
theorem C127_login (id : ID) (D : Default) (E : Env) (fuel : Nat) (p : CallPos) (cache : ID → Res (Option OPMeta)) (anchors : List ID) (sign : Signer)
    (parse : URLParser) (now : Int) (jti : Option String) (issuer : ID) (redirectURI state scope : String) (add : AMap (List String)) (hwf : add.WF)
    (ho : NoOverflow now 60) (hc : cache issuer = .ok none) (u : URL)
    (h : (newLeaf id).loginURL D E fuel p cache anchors sign parse now jti issuer redirectURI state scope add = some (.ok u)) :
    ∃ m em, D.metadata E fuel p ⟨issuer, anchors, ["openid_provider"]⟩ = some (.ok (some m)) ∧ m.known .op = some em ∧
      ∀ i a, StrAttr em "issuer" i → StrAttr em "authorization_endpoint" a → SendsUser sign parse i a u := by
  obtain ⟨op, hop, hu⟩ := Option.map_eq_some_iff.mp h
  obtain ⟨opm, rfl, hs⟩ := url_sends hwf ho hu
  obtain ⟨m, em, h1, h2, rfl⟩ := opMetadata_resolved hc hop
  refine ⟨m, em, h1, h2, ?_⟩
  intro i a hi ha
  have e1 : (opMetaOf em).issuer = i := str_of_attr hi
  have e2 : (opMetaOf em).authorizationEndpoint = a := str_of_attr ha
  rw [e1, e2] at hs
  exact hs

/-- **C127**: and a code is sent to the `token_endpoint` in that metadata, and nowhere else. -/
theorem C127_exchange (id : ID) (D : Default) (E : Env) (fuel : Nat) (p : CallPos) (cache : ID → Res (Option OPMeta)) (anchors : List ID) (sign : Signer)
    (post : String → AMap (List String) → Option JV) (now : Int) (jti : Option String) (issuer : ID) (code redirectURI : String)
    (params : Option (AMap (List String))) (ho : NoOverflow now 60) (hc : cache issuer = .ok none) (x : Exchange)
    (h : (newLeaf id).exchangeCode D E fuel p cache anchors sign post now jti issuer code redirectURI params = some x) (hsent : x.sent ≠ none) :
    ∃ m em, D.metadata E fuel p ⟨issuer, anchors, ["openid_provider"]⟩ = some (.ok (some m)) ∧ m.known .op = some em ∧
      ∀ t, StrAttr em "token_endpoint" t → SendsCode sign t code x.sent := by
  obtain ⟨op, hop, rfl⟩ := Option.map_eq_some_iff.mp h
  obtain ⟨⟨ep, form⟩, hs⟩ := Option.ne_none_iff_exists'.mp hsent
  obtain ⟨opm, _, _, _, rfl, _⟩ := C72_exchange_request id sign post now jti op code redirectURI params ho ep form hs
  obtain ⟨m, em, h1, h2, rfl⟩ := opMetadata_resolved hc hop
  refine ⟨m, em, h1, h2, ?_⟩
  intro t ht
  have e : (opMetaOf em).tokenEndpoint = t := str_of_attr ht
  rw [← e]
  exact exchange_sends ho (opMetaOf em) (by intro o ho'; cases ho'; rfl)

/-- **C127**: metadata found in the cache is used as it is, whatever the federation says. -/
theorem C127_cached (id : ID) (D : Default) (E : Env) (fuel : Nat) (p : CallPos) (cache : ID → Res (Option OPMeta)) (anchors : List ID) (sign : Signer)
    (parse : URLParser) (post : String → AMap (List String) → Option JV) (now : Int) (jti : Option String) (issuer : ID) (redirectURI state scope code : String)
    (add : AMap (List String)) (hwf : add.WF) (params : Option (AMap (List String))) (ho : NoOverflow now 60) (opm : OPMeta) (hc : cache issuer = .ok (some opm)) :
    (∃ r, (newLeaf id).loginURL D E fuel p cache anchors sign parse now jti issuer redirectURI state scope add = some r ∧
      ∀ u, r = .ok u → SendsUser sign parse opm.issuer opm.authorizationEndpoint u) ∧
    ∃ x, (newLeaf id).exchangeCode D E fuel p cache anchors sign post now jti issuer code redirectURI params = some x ∧
      SendsCode sign opm.tokenEndpoint code x.sent := by
  have hm := opMetadata_cached (D := D) (E := E) (fuel := fuel) (p := p) (anchors := anchors) hc
  constructor
  · refine ⟨_, by unfold Leaf.loginURL; rw [hm]; rfl, ?_⟩
    intro u hu
    obtain ⟨o, e, hs⟩ := url_sends hwf ho hu
    cases e
    exact hs
  · refine ⟨_, by unfold Leaf.exchangeCode; rw [hm]; rfl, ?_⟩
    exact exchange_sends ho opm (by intro o ho'; cases ho'; rfl)

/-- **C127**: if metadata is resolved locally, it follows from one of the chains that resolving the issuer up to the leaf's trust anchors returns (C02, C166). -/
theorem C127_chain (E : Env) (fuel : Nat) (p : CallPos) (anchors : List ID) (issuer : ID) (m : Metadata)
    (h : Default.metadata .loc E fuel p ⟨issuer, anchors, ["openid_provider"]⟩ = some (.ok (some m))) :
    ∃ c, Produces (E.world p) ⟨anchors.map (fun a => ⟨a, none⟩), issuer, ["openid_provider"]⟩ c ∧ chainMetadata c = .ok (some m) := by
  obtain ⟨r, hr, hm⟩ := Option.map_eq_some_iff.mp h
  cases fuel with
  | zero => cases hr
  | succ n =>
    simp only [Default.resolve] at hr
    cases hl : localChain E p ⟨issuer, anchors, ["openid_provider"]⟩ with
    | none => rw [hl] at hr; cases hr
    | some o =>
      rw [hl] at hr
      cases o with
      | error f => cases hr; cases hm
      | ok cm =>
        cases hr
        obtain ⟨c, m'⟩ := cm
        have e : m' = some m := by simpa [Except.map, plainPayload] using hm
        subst e
        obtain ⟨h1, h2⟩ := localChain_ok hl
        exact ⟨c, h1, h2⟩

/-! ## In a federation whose entities publish with the library -/

theorem attr_of_mem {em : EntityMeta} {f : Field} {s : String} (hf : f ∈ em.fields) (hv : f.val = .str s) (hn : (em.fields.map Field.tag).Nodup) :
    StrAttr em f.tag s := by
  refine ⟨f, hf, rfl, hv, ?_⟩
  intro g hg ht
  obtain ⟨i, hi⟩ := List.mem_iff_getElem?.mp hf
  obtain ⟨j, hj⟩ := List.mem_iff_getElem?.mp hg
  have h1 : (em.fields.map Field.tag)[i]? = some f.tag := by rw [List.getElem?_map, hi]; rfl
  have h2 : (em.fields.map Field.tag)[j]? = some f.tag := by rw [List.getElem?_map, hj, Option.map_some, ht]
  have hlt := (List.getElem?_eq_some_iff.mp h1).1
  have := (List.getElem?_inj hlt hn).mp (h1.trans h2.symm)
  subst this
  rw [hi] at hj
  exact (Option.some.inj hj).symm

/-- Attributes that no policy of the chain names are in the metadata as the leaf states them. -/
theorem chain_frame {types : List String} {t : EType} (ht : t.tag ∈ types) {s0 : Stmt} {rest : Chain} {r : Option Metadata}
    (h : chainMetadata (restrictTypes types s0 :: rest) = .ok r) {m0 : Metadata} (hm0 : s0.metadata = some m0) {em : EntityMeta} (hem : m0.known t = some em) :
    ∃ md em', r = some md ∧ md.known t = some em' ∧ em'.fields.map Field.tag = em.fields.map Field.tag ∧
      ∀ f ∈ em.fields, (∀ s ∈ s0 :: rest, ∀ P, s.policy = some P → AMap.get (P.known t) f.tag = none) → f ∈ em'.fields := by
  have hne : types.isEmpty = false := by cases types with | nil => cases ht | cons a l => rfl
  have hmeta : (restrictTypes types s0).metadata = some (m0.restrict types) := by
    unfold restrictTypes
    rw [hne, hm0]
    rfl
  have hpol0 : (restrictTypes types s0).policy = s0.policy := by unfold restrictTypes; split <;> rfl
  have hk : (m0.restrict types).known t = some em := by
    show (if types.contains t.tag then m0.known t else none) = some em
    rw [if_pos (List.contains_iff_mem.mpr ht), hem]
  cases rest with
  | nil =>
    have h' : (.ok (restrictTypes types s0).metadata : Res (Option Metadata)) = .ok r := h
    rw [hmeta] at h'
    cases h'
    exact ⟨_, em, rfl, hk, rfl, fun f hf _ => hf⟩
  | cons b rest' =>
    obtain ⟨p, md, rfl, hp, ha⟩ := chainMetadata_ok h
    obtain ⟨_, f2, _⟩ := C29_frame_partial _ md p ha
    obtain ⟨em', hem', _, _, hlen, hfr⟩ := f2 t em (by rw [hmeta]; exact hk)
    refine ⟨md, em', rfl, hem', ?_, ?_⟩
    · apply List.ext_getElem?
      intro i
      rw [List.getElem?_map, List.getElem?_map]
      cases hi : em.fields[i]? with
      | none =>
        have : em'.fields[i]? = none := by
          rw [List.getElem?_eq_none_iff] at hi ⊢
          omega
        rw [this]
      | some f =>
        obtain ⟨f', hf', _, n2, _, _⟩ := hfr i f hi
        rw [hf', Option.map_some, n2, Option.map_some]
    · intro f hf hno
      obtain ⟨i, hi⟩ := List.mem_iff_getElem?.mp hf
      obtain ⟨f', hf', _, _, _, hsame⟩ := hfr i f hi
      have hnone : AMap.get (p.known t) f.tag = none := by
        cases hg : AMap.get (p.known t) f.tag with
        | none => rfl
        | some e =>
          exfalso
          obtain ⟨q, hq, e', he'⟩ := combineAll_names (mergePolicies_ok hp t) hg
          obtain ⟨Q, hQ, rfl⟩ := List.mem_map.mp hq
          rw [List.mem_filterMap] at hQ
          obtain ⟨oQ, hoQ, hid⟩ := hQ
          obtain ⟨s, hs, rfl⟩ := List.mem_map.mp hoQ
          have hid' : s.policy = some Q := hid
          rcases List.mem_cons.mp hs with rfl | hs
          · rw [hpol0] at hid'
            rw [hno s0 (List.mem_cons_self ..) Q hid'] at he'
            cases he'
          · rw [hno s (List.mem_cons_of_mem _ hs) Q hid'] at he'
            cases he'
      rw [← hsame hnone]
      exact List.mem_of_getElem? hf'

theorem op_fields : (⟨"Issuer", "issuer", .str, false⟩ : MField) ∈ metaFields .op ∧
    (⟨"AuthorizationEndpoint", "authorization_endpoint", .str, false⟩ : MField) ∈ metaFields .op ∧
    (⟨"TokenEndpoint", "token_endpoint", .str, false⟩ : MField) ∈ metaFields .op := by
  refine ⟨?_, ?_, ?_⟩ <;> simp [metaFields, opFields]

/-- The metadata of every chain found for the provider. -/
theorem provider_metadata {C : Crypto} {X : Reader} {keyOf : Nat → JKey} {msgOf : Nat → Jws} {ks : List JKey} {js : List Jws}
    (hX : Faithful X keyOf msgOf ks js) {signer : ID → JSigner} {P : String → Option Jws} {ser : Jws → String} (hP : ∀ j, P (ser j) = some j) {W : World}
    {issuer : ID} {leaf : ESPayload} {own : MStruct} (hs : ProviderServed C X signer (fun j => parseStmt P X.decode (ser j)) W issuer leaf own)
    {iss aep tep : String} (hcfg : Configures own iss aep tep) {anchors : List Anchor} {c : Chain} (hc : Produces W ⟨anchors, issuer, ["openid_provider"]⟩ c)
    {m : Option Metadata} (hm : chainMetadata c = .ok m) :
    ∃ md em, m = some md ∧ md.known .op = some em ∧ StrAttr em "issuer" iss ∧ StrAttr em "authorization_endpoint" aep ∧ StrAttr em "token_endpoint" tep := by
  obtain ⟨⟨s0, rest, rfl, h0⟩, htail⟩ := ExM.chain_answers hc
  obtain ⟨lj, hlj, hst⟩ := hs.config
  obtain ⟨s0', hr0, hread⟩ := published_read hX hP hlj
  rw [h0, hr0] at hst
  cases hst
  -- what the provider stated
  obtain ⟨lm, hlm, hlo⟩ := Option.bind_eq_some_iff.mp hs.op
  have hrm := hread.readMetadata
  rw [hlm] at hrm
  cases hm0 : s0.metadata with
  | none => rw [hm0] at hrm; cases hrm
  | some m0 =>
    rw [hm0] at hrm
    cases hrm
    rename_i hrm
    have hk := hrm.known .op
    rw [hlo] at hk
    cases hem : m0.known .op with
    | none => rw [hem] at hk; cases hk
    | some em =>
      rw [hem] at hk
      cases hk
      rename_i hfields
      obtain ⟨md, em', rfl, hem', htags, hfr⟩ := chain_frame (t := .op) (show EType.op.tag ∈ ["openid_provider"] by decide) hm hm0 hem
      have hnd : (em'.fields.map Field.tag).Nodup := by
        rw [htags, hread.decoded.tags m0 hm0 .op em hem]
        exact all_tags_nodup .op
      -- no policy is about the attribute
      have hno : ∀ tag ∈ ["issuer", "authorization_endpoint", "token_endpoint"], ∀ s ∈ s0 :: rest, ∀ Q, s.policy = some Q → AMap.get (Q.known .op) tag = none := by
        intro tag htag s hs' Q hQ
        have hsv : ServedIn W issuer s := by
          rcases List.mem_cons.mp hs' with rfl | hs'
          · exact .inl h0
          · rcases htail s hs' with ⟨pos, h⟩ | ⟨pos, ep, h⟩
            · exact .inr (.inl ⟨_, _, h⟩)
            · exact .inr (.inr ⟨_, _, _, _, h⟩)
        obtain ⟨p, j, hp, hj, hn⟩ := hs.served s hsv
        obtain ⟨s', hr', hread'⟩ := published_read hX hP hp
        have hj' : parseStmt P X.decode (ser j) = some s := hj
        rw [hr'] at hj'
        cases hj'
        cases hg : AMap.get (Q.known .op) tag with
        | none => rfl
        | some e =>
          exfalso
          have hrp := hread'.readPolicy
          rw [hQ] at hrp
          cases hpp : p.policy with
          | none => rw [hpp] at hrp; cases hrp
          | some J =>
            rw [hpp] at hrp
            cases hrp
            rename_i hrp
            obtain ⟨e0, h0', _⟩ := readPolicy_entry (hrp.known .op) hg
            exact hn tag htag ⟨p, List.mem_singleton.mpr rfl, J, e0, hpp, h0'⟩
      have key : ∀ (g : MField) (s : String), g ∈ metaFields .op → g.kind = .str → own.val g.name = some (.str s) →
          g.tag ∈ ["issuer", "authorization_endpoint", "token_endpoint"] → StrAttr em' g.tag s := by
        intro g s hg hkd hv ht
        obtain ⟨v, hsame, hmem⟩ := hfields.fields g hg
        have hve : v = some (.str s) := by
          rcases hsame with e | ⟨_, e⟩
          · rw [e, hv]
          · rw [hv] at e
            rcases e with e | e | e <;> cases e
        subst hve
        rw [hkd] at hmem
        exact attr_of_mem (hfr _ hmem (hno g.tag ht)) rfl hnd
      obtain ⟨g1, g2, g3⟩ := op_fields
      exact ⟨md, em', rfl, hem', key _ _ g1 rfl hcfg.issuer (by simp), key _ _ g2 rfl hcfg.authorization (by simp), key _ _ g3 rfl hcfg.token (by simp)⟩

/-- **C127** (part): if everything served is published with the library, and no policy is about the issuer and the two endpoints of providers, a user that logs in
with an issuer is sent to the authorization endpoint which that provider configured, with a request for the issuer it configured; and a code is sent to the token
endpoint it configured. Metadata is resolved locally and not cached. -/
theorem C127_operated_partial (C : Crypto) (X : Reader) (keyOf : Nat → JKey) (msgOf : Nat → Jws) (ks : List JKey) (js : List Jws)
    (hX : Faithful X keyOf msgOf ks js) (P : String → Option Jws) (ser : Jws → String) (hP : ∀ j, P (ser j) = some j) (signer : ID → JSigner) (E : Env) (fuel : Nat)
    (p : CallPos) (cache : ID → Res (Option OPMeta)) (anchors : List ID) (issuer : ID) (hc : cache issuer = .ok none) (leaf : ESPayload) (own : MStruct)
    (hs : ProviderServed C X signer (fun j => parseStmt P X.decode (ser j)) (E.world p) issuer leaf own) (iss aep tep : String) (hcfg : Configures own iss aep tep)
    (id : ID) (sign : Signer) (parse : URLParser) (post : String → AMap (List String) → Option JV) (now : Int) (ho : NoOverflow now 60) (jti : Option String)
    (redirectURI state scope code : String) (add : AMap (List String)) (hwf : add.WF) (params : Option (AMap (List String))) :
    (∀ u, (newLeaf id).loginURL .loc E fuel p cache anchors sign parse now jti issuer redirectURI state scope add = some (.ok u) → SendsUser sign parse iss aep u) ∧
    ∀ x, (newLeaf id).exchangeCode .loc E fuel p cache anchors sign post now jti issuer code redirectURI params = some x → SendsCode sign tep code x.sent := by
  have found : ∀ m em, Default.metadata .loc E fuel p ⟨issuer, anchors, ["openid_provider"]⟩ = some (.ok (some m)) → m.known .op = some em →
      StrAttr em "issuer" iss ∧ StrAttr em "authorization_endpoint" aep ∧ StrAttr em "token_endpoint" tep := by
    intro m em hm hem
    obtain ⟨c, hprod, hcm⟩ := C127_chain E fuel p anchors issuer m hm
    obtain ⟨md, em', e, hem', h⟩ := provider_metadata hX hP hs hcfg hprod hcm
    cases e
    rw [hem] at hem'
    cases hem'
    exact h
  constructor
  · intro u hu
    obtain ⟨m, em, h1, h2, h3⟩ := C127_login id .loc E fuel p cache anchors sign parse now jti issuer redirectURI state scope add hwf ho hc u hu
    obtain ⟨f1, f2, _⟩ := found m em h1 h2
    exact h3 _ _ f1 f2
  · intro x hx
    by_cases hsent : x.sent = none
    · intro ep form h
      rw [hsent] at h
      cases h
    · obtain ⟨m, em, h1, h2, h3⟩ := C127_exchange id .loc E fuel p cache anchors sign post now jti issuer code redirectURI params ho hc x hx hsent
      exact h3 _ (found m em h1 h2).2.2

/-- **C127** (part): and it works: if a trust chain with metadata is found for the provider, the endpoint it configured can be parsed, there is randomness and the
signer signs, there is a URL; and the code is sent and the answer read. -/
theorem C127_works_partial (C : Crypto) (X : Reader) (keyOf : Nat → JKey) (msgOf : Nat → Jws) (ks : List JKey) (js : List Jws)
    (hX : Faithful X keyOf msgOf ks js) (P : String → Option Jws) (ser : Jws → String) (hP : ∀ j, P (ser j) = some j) (signer : ID → JSigner) (E : Env) (fuel : Nat)
    (p : CallPos) (cache : ID → Res (Option OPMeta)) (anchors : List ID) (issuer : ID) (hc : cache issuer = .ok none) (leaf : ESPayload) (own : MStruct)
    (hs : ProviderServed C X signer (fun j => parseStmt P X.decode (ser j)) (E.world p) issuer leaf own) (iss aep tep : String) (hcfg : Configures own iss aep tep)
    (cs : List Chain) (hcs : (⟨anchors.map (fun a => ⟨a, none⟩), issuer, ["openid_provider"]⟩ : Resolver).validChains (E.world p) E.depth = .ok (some cs)) (hne : cs ≠ [])
    (id : ID) (sign : Signer) (hsign : ∀ claims, sign "" claims ≠ none) (parse : URLParser) (hparse : parse aep ≠ none)
    (post : String → AMap (List String) → Option JV) (now : Int) (j : String)
    (redirectURI state scope code : String) (add : AMap (List String)) (params : Option (AMap (List String))) :
    (∃ u, (newLeaf id).loginURL .loc E (fuel + 1) p cache anchors sign parse now (some j) issuer redirectURI state scope add = some (.ok u)) ∧
    ∃ x form, (newLeaf id).exchangeCode .loc E (fuel + 1) p cache anchors sign post now (some j) issuer code redirectURI params = some x ∧ x.sent = some (tep, form) ∧
      ∀ r, x.result = .ok r ↔ readTokenResponse (post tep form) = some r := by
  obtain ⟨⟨c, m⟩, hl⟩ := localChain_some (E := E) (p := p) (q := opRequest issuer anchors) hcs hne
  obtain ⟨hprod, hcm⟩ := localChain_ok hl
  obtain ⟨md, em, rfl, hem, a1, a2, a3⟩ := provider_metadata hX hP hs hcfg hprod hcm
  have hop : opMetadata .loc E (fuel + 1) p cache anchors issuer = some (.ok (some ⟨iss, aep, tep⟩)) := by
    have hmd : Default.metadata .loc E (fuel + 1) p (opRequest issuer anchors) = some (.ok (some md)) := by
      unfold Default.metadata
      simp only [Default.resolve, hl]
      rfl
    unfold opMetadata
    rw [hc]
    dsimp only
    rw [hmd]
    simp only [Option.map_some, resolveOPMetadata, hem, opMetaOf]
    rw [str_of_attr a1, str_of_attr a2, str_of_attr a3]
  constructor
  · unfold Leaf.loginURL
    rw [hop]
    have haud : (requestParams ⟨iss, aep, tep⟩ redirectURI state scope add).get "aud" ≠ none := by rw [requestParams_get]; intro hc; cases hc
    have hro : ∃ ro, ((newLeaf id).rop.requestObject sign now (some j) (some (requestParams ⟨iss, aep, tep⟩ redirectURI state scope add))).1 = some ro := by
      rw [requestObject_eq _ _ _ _ _ haud]
      cases (ro1 (newLeaf id).rop.entityID (requestParams ⟨iss, aep, tep⟩ redirectURI state scope add)).get "jti" with
      | none => exact Option.ne_none_iff_exists'.mp (hsign _)
      | some v => exact Option.ne_none_iff_exists'.mp (hsign _)
    obtain ⟨ro, hro⟩ := hro
    obtain ⟨u0, hu0⟩ := Option.ne_none_iff_exists'.mp hparse
    refine ⟨{ u0 with query := [("client_id", id), ("redirect_uri", redirectURI), ("request", ro), ("response_type", "code"), ("scope", scope)] }, ?_⟩
    simp only [Option.map_some, Leaf.authorizationURL, hro, hu0]
    rfl
  · unfold Leaf.exchangeCode
    rw [hop]
    obtain ⟨a, ha⟩ : ∃ a, (newLeaf id).rop.clientAssertion sign now (some j) tep = some a := Option.ne_none_iff_exists'.mp (hsign _)
    have hsent : ((newLeaf id).codeExchange sign post now (some j) (.ok (some ⟨iss, aep, tep⟩)) code redirectURI params).sent =
        some (tep, assertedParams (exchangeParams (newLeaf id) code redirectURI params) a) := by
      simp only [Leaf.codeExchange, ha]
    exact ⟨_, _, rfl, hsent, (C72_answer_read _ sign post now (some j) _ code redirectURI params).1 _ _ hsent⟩

namespace ExL
open ExS
open ExO (signer pub jwt mk md keyNo in_time)
open ExTM (X)

def strNames : List String := ((metaFields .op).filter (fun f => f.kind == .str)).map MField.name
def boolNames : List String := ((metaFields .op).filter (fun f => f.kind == .bool)).map MField.name

/-- The metadata of a provider. -/
def opS : MStruct where
  val := fun n => if n = "Issuer" then some (.str "https://op") else if n = "AuthorizationEndpoint" then some (.str "https://op/auth?tenant=x") else
    if n = "TokenEndpoint" then some (.str "https://op/token") else if n ∈ strNames then some (.str "") else if n ∈ boolNames then some (.bool false) else none
  wasSet := ["Issuer", "AuthorizationEndpoint", "TokenEndpoint"]
  extra := []

set_option maxRecDepth 10000 in
theorem kinds : ∀ f ∈ metaFields .op, (f.kind = .str ↔ f.name ∈ strNames) ∧ (f.kind = .bool ↔ f.name ∈ boolNames) ∧ f.kind ≠ .int ∧
    (f.name = "Issuer" ∨ f.name = "AuthorizationEndpoint" ∨ f.name = "TokenEndpoint" → f.kind = .str) := by decide

theorem opS_ok : MetaOk opq .op opS where
  extra := ⟨by simp [opS, AMap.WF, AMap.keys], by intro k hk; cases hk⟩
  typed := by
    intro f hf w hw
    obtain ⟨k1, k2, _, k4⟩ := kinds f hf
    simp only [opS] at hw
    split at hw
    · rename_i h; rw [k4 (.inl h)]; cases hw; rfl
    split at hw
    · rename_i h; rw [k4 (.inr (.inl h))]; cases hw; rfl
    split at hw
    · rename_i h; rw [k4 (.inr (.inr h))]; cases hw; rfl
    split at hw
    · rename_i h; rw [k1.mpr h]; cases hw; rfl
    split at hw
    · rename_i h; rw [k2.mpr h]; cases hw; rfl
    · cases hw
  nonnil := by
    intro f hf hw
    obtain ⟨k1, k2, k3, _⟩ := kinds f hf
    simp only [opS] at hw
    split at hw
    · cases hw
    split at hw
    · cases hw
    split at hw
    · cases hw
    split at hw
    · cases hw
    split at hw
    · cases hw
    · rename_i h4 h5
      cases hk : f.kind with
      | str => exact absurd (k1.mp hk) h4
      | bool => exact absurd (k2.mp hk) h5
      | int => exact absurd hk k3
      | _ => rfl

/-- A provider `l` directly below the trust anchor. -/
def mdOP : JMetadata := ⟨fun t => match t with | .op => some opS | _ => none, []⟩
def leaf (q : Bool) : ESPayload := mk q "l" "l" ["t"] (some mdOP) ⟨none, none, none⟩
def tCfg (q : Bool) : ESPayload := mk q "t" "t" [] (some (md "t/fetch")) ⟨none, none, none⟩
def tl (q : Bool) : ESPayload := mk q "t" "l" [] none ⟨some 1, none, none⟩

theorem p_leaf (q : Bool) (numJ : Jws → Nat) : Published exCrypto (X numJ) signer (leaf q) (jwt (leaf q)) where
  ok := { ExO.mk_ok q "l" "l" ["t"] none ⟨none, none, none⟩ (.inl rfl) (.inr rfl) with
    metadata := by
      intro x hx
      cases hx
      refine ⟨⟨by simp [AMap.WF, AMap.keys, mdOP], by intro k hk; cases hk⟩, ?_⟩
      intro t s hs
      cases t <;> first | (cases hs; exact opS_ok) | cases hs }
  signed := rfl

theorem p_tCfg (q : Bool) (numJ : Jws → Nat) : Published exCrypto (X numJ) signer (tCfg q) (jwt (tCfg q)) where
  ok := ExO.mk_ok q _ _ _ _ _ (.inr ⟨_, rfl⟩) (.inr rfl)
  signed := rfl

theorem p_tl (q : Bool) (numJ : Jws → Nat) : Published exCrypto (X numJ) signer (tl q) (jwt (tl q)) where
  ok := ExO.mk_ok q _ _ _ _ _ (.inl rfl) (.inl rfl)
  signed := rfl

def W (q : Bool) (msgOf : Nat → Jws) (read : Jws → Option Stmt) : World where
  start := fun id => if id = "l" then read (jwt (leaf q)) else none
  ec := fun _ id => if id = "t" then read (jwt (tCfg q)) else none
  fetch := fun _ ep sub iss => if ep = "t/fetch" ∧ sub = "l" ∧ iss = "t" then read (jwt (tl q)) else none
  nowEC := fun _ => 1700000000123999999
  nowSub := fun _ => 1700000000123999999
  host := fun id => some id
  sig := jwsOracle exCrypto pub msgOf

def E (q : Bool) (msgOf : Nat → Jws) (read : Jws → Option Stmt) : Env where
  world := fun _ => W q msgOf read
  depth := 4
  swaps := fun _ => []
  anchorEC := fun _ _ _ => none
  issuerEC := fun _ _ => none
  http := fun _ _ _ _ => .failed
  now := fun _ _ => (0, 0)
  claims := fun _ => ⟨[], none, []⟩
  reader := fun _ => none
  parse := fun _ => none
  sig := jwsOracle exCrypto pub msgOf

theorem faithful (numJ : Jws → Nat) (msgOf : Nat → Jws) (h : ∀ j, msgOf (numJ j) = j) : Faithful (X numJ) pub msgOf [pub 1, pub 3] [] where
  keys := codec_ok
  maps := opq_map
  keyNumbers := by
    intro k hk
    simp only [List.mem_cons, List.not_mem_nil, or_false] at hk
    rcases hk with rfl | rfl <;> rfl
  messages := fun j _ => h j

theorem served_are (q : Bool) (msgOf : Nat → Jws) (read : Jws → Option Stmt) (s : Stmt) (h : ServedIn (W q msgOf read) "l" s) :
    ∃ p ∈ [leaf q, tCfg q, tl q], read (jwt p) = some s := by
  rcases h with h | ⟨_, id, h⟩ | ⟨_, ep, sub, iss, h⟩
  · exact ⟨leaf q, by simp, h⟩
  · have h' : (if id = "t" then read (jwt (tCfg q)) else none) = some s := h
    split at h'
    · exact ⟨tCfg q, by simp, h'⟩
    · cases h'
  · have h' : (if ep = "t/fetch" ∧ sub = "l" ∧ iss = "t" then read (jwt (tl q)) else none) = some s := h
    split at h'
    · exact ⟨tl q, by simp, h'⟩
    · cases h'

/-- The superiors have policies, but not about the provider's endpoints. -/
theorem provider_served (q : Bool) (numJ : Jws → Nat) (msgOf : Nat → Jws) (read : Jws → Option Stmt) :
    ProviderServed exCrypto (X numJ) signer read (W q msgOf read) "l" (leaf q) opS where
  config := ⟨_, p_leaf q numJ, rfl⟩
  op := rfl
  served := by
    intro s hs
    obtain ⟨p, hp, hr⟩ := served_are q msgOf read s hs
    have hpol : p.policy = if q then (payload ⟨none, none, none⟩).policy else none := by
      simp only [List.mem_cons, List.not_mem_nil, or_false] at hp
      rcases hp with rfl | rfl | rfl <;> rfl
    have hpub : Published exCrypto (X numJ) signer p (jwt p) := by
      simp only [List.mem_cons, List.not_mem_nil, or_false] at hp
      rcases hp with rfl | rfl | rfl
      · exact p_leaf q numJ
      · exact p_tCfg q numJ
      · exact p_tl q numJ
    refine ⟨p, jwt p, hpub, hr, ?_⟩
    rintro tag _ ⟨p', hp', Q, e, hQ, hg⟩
    rw [List.mem_singleton.mp hp', hpol] at hQ
    cases q
    · cases hQ
    · rcases ExO.one_policy (Option.some.inj hQ).symm hg with ⟨h, _⟩ | ⟨h, _⟩ <;> cases h

theorem configures : Configures opS "https://op" "https://op/auth?tenant=x" "https://op/token" := ⟨rfl, rfl, rfl⟩

def at' (q : Bool) : Authority := ⟨0, tCfg q, jwt (tCfg q), tl q, jwt (tl q)⟩

def R : Resolver := ⟨[⟨"t", none⟩], "l", ["openid_provider"]⟩

theorem operated (q : Bool) (numJ : Jws → Nat) (msgOf : Nat → Jws) (read : Jws → Option Stmt) :
    OperatedWith exCrypto (X numJ) read pub signer (W q msgOf read) R.anchors R.types (leaf q) (jwt (leaf q)) [at' q] (at' q) where
  leaf_published := p_leaf q numJ
  last := rfl
  anchor := ⟨⟨"t", none⟩, ⟨[], [], rfl, rfl, by simp⟩, .inr ⟨rfl, _, rfl, rfl⟩⟩
  authorities := by
    intro k e a he ha
    match k with
    | 0 =>
      cases he; cases ha
      exact {
        config := p_tCfg q numJ, about := p_tl q numJ, below_not_anchor := by revert q; decide, hinted := rfl, new := by revert q; decide, own := rfl, about_iss := rfl, about_sub := rfl
        keys := ⟨_, rfl, rfl⟩, serves_config := rfl
        serves_about := ⟨"t/fetch", ⟨by decide, _, _, rfl, rfl, rfl⟩, rfl⟩
        config_time := in_time _ rfl rfl, about_time := in_time _ rfl rfl
        constraints := by
          intro c hc
          cases hc
          refine ⟨by intro n hn; cases hn; decide, ?_, ?_⟩
          · intro id _ n hn; cases hn
          · intro ty _ ts hts; cases hts }
    | n+1 => cases ha

/-- The provider resolves if there are no policies. -/
theorem resolves (numJ : Jws → Nat) (msgOf : Nat → Jws) (hmsg : ∀ j, msgOf (numJ j) = j) (ser : Jws → String) (P : String → Option Jws) (hP : ∀ j, P (ser j) = some j) :
    ∃ cs, R.validChains (W false msgOf (fun j => parseStmt P (X numJ).decode (ser j))) 4 = .ok (some cs) ∧ cs ≠ [] := by
  obtain ⟨s0, h1, seen0⟩ := published_seen (faithful numJ msgOf hmsg) hP (p_leaf false numJ)
  obtain ⟨s2, h3, seen2⟩ := published_seen (faithful numJ msgOf hmsg) hP (p_tCfg false numJ)
  have hm : s0.metadata.isSome = true := seen0.hasMeta
  have hterm : R.chainsNoMeta (W false msgOf (fun j => parseStmt P (X numJ).decode (ser j))) 4 ≠ .ok none := by
    refine C09_resolution_terminates _ R ["t"] ?_ ?_ 4 (by decide)
    · intro p id s hs h hh
      have hs' : (if id = "t" then parseStmt P (X numJ).decode (ser (jwt (tCfg false))) else none) = some s := hs
      split at hs'
      · have e : s2 = s := Option.some.inj (h3.symm.trans hs')
        rw [← e, seen2.hints] at hh
        cases hh
      · cases hs'
    · intro id s hs h hh
      have hs' : (if id = "l" then parseStmt P (X numJ).decode (ser (jwt (leaf false))) else none) = some s := hs
      split at hs'
      case isFalse => cases hs'
      have e : s0 = s := Option.some.inj (h1.symm.trans hs')
      rw [← e, seen0.hints] at hh
      exact hh
  have hnp := C117_no_panic_partial exCrypto (X numJ) pub msgOf P ser hP signer (W false msgOf (fun j => parseStmt P (X numJ).decode (ser j))) R _ _
    (faithful numJ msgOf hmsg) (by
      intro s hs
      obtain ⟨p, hp, hr⟩ := served_are false msgOf _ s hs
      have hno : ∀ p ∈ [leaf false, tCfg false, tl false], p.policy = none ∧ Published exCrypto (X numJ) signer p (jwt p) := by
        intro p hp
        simp only [List.mem_cons, List.not_mem_nil, or_false] at hp
        rcases hp with rfl | rfl | rfl
        · exact ⟨rfl, p_leaf false numJ⟩
        · exact ⟨rfl, p_tCfg false numJ⟩
        · exact ⟨rfl, p_tl false numJ⟩
      refine ⟨p, jwt p, (hno p hp).2, ?_, hr⟩
      intro Q hQ
      rw [(hno p hp).1] at hQ
      cases hQ) (by
      intro s hs hn
      have e : s0 = s := Option.some.inj (h1.symm.trans hs)
      rw [← e] at hn
      rw [hn] at hm
      cases hm) 4
  cases hv : R.validChains (W false msgOf (fun j => parseStmt P (X numJ).decode (ser j))) 4 with
  | error f =>
    exfalso
    unfold Resolver.validChains at hv hnp
    cases hc : R.chainsNoMeta (W false msgOf (fun j => parseStmt P (X numJ).decode (ser j))) 4 with
    | error g =>
      have hs : (W false msgOf (fun j => parseStmt P (X numJ).decode (ser j))).start R.start = some s0 := h1
      unfold Resolver.chainsNoMeta Resolver.resolveTree at hc
      rw [hs] at hc
      cases hmm : s0.metadata with
      | none => rw [hmm] at hm; cases hm
      | some m =>
        simp only [hmm, Option.isNone_some, Bool.false_eq_true, if_false] at hc
        cases hc
    | ok o =>
      rw [hc] at hv hnp
      cases o with
      | none => cases hv
      | some cs0 =>
        simp only [bind, Except.bind] at hv hnp
        cases hf : filterValidMetadata cs0 with
        | ok x => rw [hf] at hv; cases hv
        | error g => rw [hf, (filterValid_panic hf).1] at hnp; exact hnp rfl
  | ok o =>
    cases o with
    | none =>
      exfalso
      unfold Resolver.validChains at hv
      cases hc : R.chainsNoMeta (W false msgOf (fun j => parseStmt P (X numJ).decode (ser j))) 4 with
      | error g => rw [hc] at hv; cases hv
      | ok o =>
        rw [hc] at hv
        cases o with
        | none => exact hterm hc
        | some cs0 =>
          simp only [bind, Except.bind] at hv
          cases hf : filterValidMetadata cs0 with
          | ok x => rw [hf] at hv; cases hv
          | error g => rw [hf] at hv; cases hv
    | some cs =>
      refine ⟨cs, rfl, ?_⟩
      obtain ⟨_, _, _, _, hmem, _⟩ := C117_no_policies_partial exCrypto exScheme (X numJ) pub msgOf P ser hP signer _ rfl R (leaf false) (jwt (leaf false))
        [at' false] (at' false) (by
          refine faithful_mono (ks := [pub 1, pub 3]) (js := jwtsOf (jwt (leaf false)) [at' false]) ?_ ?_ (fun j hj => hj)
          · exact ⟨codec_ok, opq_map, (faithful numJ msgOf hmsg).keyNumbers, fun j _ => hmsg j⟩
          · intro k hk
            have h : keysOf [at' false] = [pub 3, pub 1] := rfl
            rw [h] at hk
            simp only [List.mem_cons, List.not_mem_nil, or_false] at hk ⊢
            exact hk.symm) (operated false numJ msgOf _) (by
          have e : onTheWay (leaf false) [at' false] (at' false) = [leaf false, tl false, tCfg false] := rfl
          rw [e]
          intro p hp
          simp only [List.mem_cons, List.not_mem_nil, or_false] at hp
          rcases hp with rfl | rfl | rfl <;> exact ⟨rfl, by intro n hn; cases hn⟩) (by decide) rfl 4 cs hv
      intro e
      rw [e] at hmem
      cases hmem

/-- Logging in with the provider `l`: the user gets to `https://op/auth` with a request for `https://op`, the code is sent to `https://op/token`. -/
example (numJ : Jws → Nat) (msgOf : Nat → Jws) (hmsg : ∀ j, msgOf (numJ j) = j) (ser : Jws → String) (P : String → Option Jws) (hP : ∀ j, P (ser j) = some j) :
    let E := E false msgOf (fun j => parseStmt P (X numJ).decode (ser j))
    (∃ u, (newLeaf "rp").loginURL .loc E 1 [] (fun _ => .ok none) ["t"] (fun _ _ => some "jwt") Ex.urlParse 1000 (some "r") "l" "https://rp/cb" "st" "openid" Ex.addParams =
      some (.ok u) ∧ u.rest = "https://op/auth") ∧
    ∃ x, (newLeaf "rp").exchangeCode .loc E 1 [] (fun _ => .ok none) ["t"] (fun _ _ => some "jwt") Ex.authenticating 1000 (some "r") "l" "c" "https://rp/cb" none = some x ∧
      (∃ form, x.sent = some ("https://op/token", form)) ∧ SendsCode (fun _ _ => some "jwt") "https://op/token" "c" x.sent := by
  intro E
  obtain ⟨cs, h1, h2⟩ := resolves numJ msgOf hmsg ser P hP
  obtain ⟨⟨u, hu⟩, x, form, hx, hsent, _⟩ := C127_works_partial exCrypto (X numJ) pub msgOf _ _ (faithful numJ msgOf hmsg) P ser hP signer E 0 [] (fun _ => .ok none) ["t"] "l" rfl
    (leaf false) opS (provider_served false numJ msgOf _) _ _ _ configures cs h1 h2 "rp" (fun _ _ => some "jwt") (by intro c h; cases h) Ex.urlParse (by decide) Ex.authenticating 1000 "r"
    "https://rp/cb" "st" "openid" "c" Ex.addParams none
  obtain ⟨g1, g2⟩ := C127_operated_partial exCrypto (X numJ) pub msgOf _ _ (faithful numJ msgOf hmsg) P ser hP signer E 1 [] (fun _ => .ok none) ["t"] "l" rfl
    (leaf false) opS (provider_served false numJ msgOf _) _ _ _ configures "rp" (fun _ _ => some "jwt") Ex.urlParse Ex.authenticating 1000 (by unfold NoOverflow; decide) (some "r")
    "https://rp/cb" "st" "openid" "c" Ex.addParams (by simp [AMap.WF, AMap.keys, Ex.addParams]) none
  refine ⟨⟨u, hu, ?_⟩, x, hx, ⟨form, hsent⟩, g2 x hx⟩
  obtain ⟨u0, hu0, he⟩ := (g1 u hu).target
  rw [he]
  have : some u0 = some ⟨"https://op/auth", [("tenant", "x")]⟩ := hu0.symm
  cases this
  rfl

/-- Numbers for messages and their serialisation exist. -/
example : ∃ (numJ : Jws → Nat) (msgOf : Nat → Jws), ∀ j, msgOf (numJ j) = j := by
  have : Nonempty Jws := ⟨⟨[], []⟩⟩
  exact numbering Jws

/-- With policies of the superiors that are about something else. -/
example (numJ : Jws → Nat) (msgOf : Nat → Jws) (read : Jws → Option Stmt) :
    ProviderServed exCrypto (X numJ) signer read (W true msgOf read) "l" (leaf true) opS ∧ (tl true).policy ≠ none :=
  ⟨provider_served true numJ msgOf read, by intro h; cases h⟩

/-- The cache is used without asking anybody. -/
example : (newLeaf "rp").loginURL (.user (fun _ _ => .error .panic)) (E false (fun _ => ⟨[], []⟩) (fun _ => none)) 0 [] (fun _ => .ok (some Ex.opm)) [] (fun _ _ => some "jwt")
    Ex.urlParse 1000 (some "r") "l" "https://rp/cb" "st" "openid" [] = some (.ok ⟨"https://op/auth", [("client_id", "rp"), ("redirect_uri", "https://rp/cb"),
      ("request", "jwt"), ("response_type", "code"), ("scope", "openid")]⟩) := by rfl

end ExL

end Oidfed
