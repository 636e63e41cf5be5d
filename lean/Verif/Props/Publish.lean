import Verif.Spec.Publish
import Verif.Props.StmtJSON
import Verif.Props.EndToEnd
import Verif.Props.TrustMark
import Verif.Props.FedEntity
/-!
# Statements published with this library: C111
-/

namespace Oidfed
open Spec

theorem signStatement_jws {C : Crypto} {K : KeyCodec} {S : JSigner} {p : ESPayload} {j : Jws} (h : signStatement C K S p = .ok j) :
    j.payload = p.write K ∧ verifyType j "entity-statement+jwt" = true := by
  unfold signStatement signAs JSigner.jwt at h
  split at h
  · cases h
  · simp only [signWithType] at h
    split at h
    · cases h
    · cases h
      exact ⟨rfl, rfl⟩

theorem window_read {iat exp iat' exp' t : Int} (h1 : |iat' - iat| < 2000) (h2 : |exp' - exp| < 2000) (r1 : |iat| ≤ 2 ^ 62) (r2 : |exp| ≤ 2 ^ 62) :
    (iat + 2000 ≤ t → t ≤ exp - 2000 → verifyTime t (some iat') (some exp') = true) ∧
    (verifyTime t (some iat') (some exp') = true → iat - 2000 < t ∧ t < exp + 2000) := by
  have z1 : Time.isZero iat' = false := by
    simpa [Time.isZero] using near_ne_zero r1 h1
  have z2 : Time.isZero exp' = false := by
    simpa [Time.isZero] using near_ne_zero r2 h2
  rw [abs_lt] at h1 h2
  simp only [verifyTime, z1, z2, Bool.not_false, Bool.true_and]
  constructor
  · intro h3 h4
    have h5 : ¬ t < iat' := by omega
    have h6 : ¬ exp' < t := by omega
    simp [h5, h6]
  · intro h
    by_cases h5 : t < iat'
    · simp [h5] at h
    · by_cases h6 : exp' < t
      · simp [h5, h6] at h
      · constructor <;> omega

theorem decoded_toVal (N : Numbering) (v : JV) : Decoded N v (v.toVal N) := by
  cases v with
  | null => rw [JV.toVal]; exact .null
  | bool b => rw [JV.toVal]; exact .bool b
  | num q => rw [JV.toVal]; exact .num q
  | str s => rw [JV.toVal]; exact .str s
  | obj l => rw [JV.toVal]; exact .obj l
  | arr l =>
    rw [JV.toVal]
    refine .arr l _ (by simp) (fun i h1 h2 => ?_)
    simp only [List.getElem_map, List.getElem_attach]
    exact decoded_toVal N l[i]
termination_by sizeOf v
decreasing_by
  have := List.sizeOf_lt_of_mem (List.getElem_mem h1)
  simp_wf
  omega

theorem decoded_eq {N : Numbering} {v : JV} {w : Val} (h : Decoded N v w) : w = v.toVal N := by
  induction h with
  | null => rw [JV.toVal]
  | bool b => rw [JV.toVal]
  | num q => rw [JV.toVal]
  | str s => rw [JV.toVal]
  | obj l => rw [JV.toVal]
  | arr l xs hl h ih =>
    rw [JV.toVal]
    congr 1
    refine List.ext_getElem (by simp [hl]) (fun i h1 h2 => ?_)
    simp only [List.getElem_map, List.getElem_attach]
    exact ih i (hl ▸ h1) h1

theorem sameMap_toVal {N : Numbering} {a b : AMap JV} (h : SameMap Eq a b) : SameMap (Decoded N) a (b.map (fun kv => (kv.1, kv.2.toVal N))) := by
  intro k
  have := h k
  rw [jget_mapv]
  cases ha : AMap.get a k <;> cases hb : AMap.get b k <;> rw [ha, hb] at this <;> cases this
  · exact .none
  · rename_i e; rw [e]; exact .some (decoded_toVal N _)

theorem readPolicy_of_same {N : Numbering} {a b : JPolicy} (h : SamePolicyJSON a b) : ReadPolicy N a (b.toPolicy N) := by
  intro k
  have := h k
  unfold JPolicy.toPolicy
  rw [jget_mapv]
  cases ha : AMap.get a k <;> cases hb : AMap.get b k <;> rw [ha, hb] at this <;> cases this
  · exact .none
  · rename_i e; exact .some (sameMap_toVal e)

theorem readMetadata_of_same {N : Numbering} {a b : JMetadata} (h : SameMetadata a b) : ReadMetadata N a (b.toMetadata N) where
  known := by
    intro t
    have := h.known t
    show Option.Rel _ _ ((b.known t).map _)
    cases ha : a.known t <;> cases hb : b.known t <;> rw [ha, hb] at this <;> cases this
    · exact .none
    · rename_i x y e
      refine .some ⟨?_, sameMap_toVal e.extra⟩
      intro f hf
      exact ⟨y.val f.name, e.fields f hf, List.mem_append_left _ (List.mem_map.mpr ⟨f, hf, rfl⟩)⟩
  extra := by
    have := sameMap_toVal (N := N) h.extra
    show SameMap _ _ (Option.getD (if b.extra.isEmpty then none else some _) [])
    split
    · rename_i he
      rw [List.isEmpty_iff.mp he] at this
      exact this
    · exact this

theorem readAs_of_same {N : Numbering} {raw : Option Nat} {p q : ESPayload} (h : SameClaims p q) : ReadAs N p (q.toStmt N raw) where
  iss := h.iss
  sub := h.sub
  keys := by
    rw [← show q.jwks.getD [] = p.jwks.getD [] from h.keys]
    show (q.jwks.map _).getD [] = _
    cases q.jwks <;> rfl
  hints := h.hints
  metadata := by
    have hm := h.metadata
    show Option.Rel _ _ (q.metadata.map _)
    cases ha : p.metadata <;> cases hb : q.metadata <;> rw [ha, hb] at hm <;> cases hm
    · exact .none
    · rename_i e; exact .some (readMetadata_of_same e)
  policy := by
    have hm := h.policy
    show Option.Rel _ _ (q.policy.map _)
    cases ha : p.policy <;> cases hb : q.policy <;> rw [ha, hb] at hm <;> cases hm
    · exact .none
    · rename_i e; 
      refine .some ⟨fun t => readPolicy_of_same (e.known t), ?_⟩
      intro k
      have h1 := e.extra k
      show Option.Rel _ _ (AMap.get (List.map _ _) k)
      rw [jget_mapv (g := fun x => some (JPolicy.toPolicy N x))]
      revert h1
      cases AMap.get _ k <;> cases AMap.get _ k <;> intro h1 <;> cases h1
      · exact .none
      · rename_i e; exact .some ⟨_, rfl, readPolicy_of_same e⟩
  constraints := h.constraints
  crit := h.crit
  policyCrit := h.policyCrit

/-- **C111** (part): what `SignEntityStatement` makes of a payload is read by everybody as a statement with the same claims, verifies with the keys of the
signer, and is valid from (two microseconds after) the time of issuing until (two microseconds before) expiry, and not outside. The assumptions
on the payload are those of C110, except that constraints may have empty lists: these are left out of what is read (`asWritten`), nothing else is. -/
theorem C111_statement_partial (C : Crypto) (hC : Scheme C) (X : Reader) (keyOf : Nat → JKey) (msgOf : Nat → Jws) (P : String → Option Jws)
    (ser : Jws → String) (hP : ∀ j, P (ser j) = some j) (S : JSigner) (p : ESPayload) (hp : PayloadOk X.opq p)
    (j : Jws) (hj : signStatement C X.K S p = .ok j) (ks : List JKey) (hks : S.jwks C = .ok ks)
    (hX : Faithful X keyOf msgOf ks [j]) :
    ∃ q s, parseStmt P X.decode (ser j) = some s ∧ X.decode j = some s ∧ ESPayload.read X.K X.opq j.payload = some q ∧ SameClaims p.asWritten q ∧ ReadAs X.N p.asWritten s ∧
      Signed (jwsOracle C keyOf msgOf) (some (ks.map X.N.key)) s ∧
      (∀ t, SafelyWithin p t → s.timeValid t = true) ∧ (∀ t, s.timeValid t = true → NearlyWithin p t) := by
  obtain ⟨q, h1, h2⟩ := C110_as_written_partial X.K hX.keys X.opq hX.maps p hp
  obtain ⟨h3, h4⟩ := signStatement_jws hj
  have hd : X.decode j = some (q.toStmt X.N (some (X.num j))) := by
    unfold Reader.decode decodeStmt
    rw [h3, h1]
    rfl
  refine ⟨q, _, ?_, hd, by rw [h3]; exact h1, h2, readAs_of_same h2, ?_, ?_, ?_⟩
  · unfold parseStmt
    rw [hP]
    simp only [h4, if_true]
    exact hd
  · obtain ⟨pl, hpl, hv⟩ := C94_signed_verifies C hC S .entityStatement (some (p.write X.K)) j ks hj hks
    have hmap : (ks.map X.N.key).map keyOf = ks := by
      rw [List.map_map]
      conv => rhs; rw [← List.map_id ks]
      exact List.map_congr_left (fun k hk => hX.keyNumbers k hk)
    refine ⟨_, X.num j, rfl, ?_, rfl, ?_⟩
    · intro hc
      rw [List.map_eq_nil_iff] at hc
      subst hc
      simp [verifyWithSet] at hv
    · unfold jwsOracle
      rw [hmap, hX.messages j (List.mem_singleton.mpr rfl)]
      simp only [verifyWithSet] at hv
      split at hv
      · cases hv
      · split at hv
        · assumption
        · cases hv
  · intro t ht
    exact (window_read h2.iat h2.exp hp.iat hp.exp).1 ht.1 ht.2
  · intro t ht
    exact (window_read h2.iat h2.exp hp.iat hp.exp).2 ht

theorem keyToJWKS_ne {C : Crypto} {S : JSigner} {ks : List JKey} (h : S.jwks C = .ok ks) : ks ≠ [] := by
  unfold JSigner.jwks keyToJWKS at h
  split at h
  · cases h
  · split at h
    · cases h
    · cases h; simp

/-- **C111** (part): the entity configuration that an entity made with `NewFederationEntity` publishes is read by everybody as the entity's configuration: issuer and
subject are the entity, the authority hints are the configured ones, the keys are those of the signer and verify it, and it is valid for the configured lifetime (a
day by default). -/
theorem C111_configuration_partial (C : Crypto) (hC : Scheme C) (X : Reader) (keyOf : Nat → JKey) (msgOf : Nat → Jws) (P : String → Option Jws)
    (ser : Jws → String) (hP : ∀ j, P (ser j) = some j) (S : JSigner) (id : ID) (hints : Option (List String))
    (metadata : Option JMetadata) (lifetime : Int) (extra : AMap JV) (f0 : FedConfig) (hf : newFedConfig C id hints metadata S lifetime extra = .ok f0)
    (marks : List OwnMark) (issuers : AMap (Option (List String))) (owners : AMap OwnerInfo)
    (now : Time) (ans : Nat → Option String) (hlt : lifetime ≤ 2 ^ 32)
    (hp : PayloadOk X.opq ({ f0 with marks := marks, issuers := issuers, owners := owners }.payload now ans)) (j : Jws)
    (hj : { f0 with marks := marks, issuers := issuers, owners := owners }.jwt C X.K S now ans = .ok j)
    (hX : ∀ ks, S.jwks C = .ok ks → Faithful X keyOf msgOf ks [j]) :
    ∃ q s ks, parseStmt P X.decode (ser j) = some s ∧ ESPayload.read X.K X.opq j.payload = some q ∧
      Option.Rel SameMetadata metadata q.metadata ∧ Option.Rel (ReadMetadata X.N) metadata s.metadata ∧ SameMap Eq extra q.extra ∧ SameMap Eq issuers q.issuers ∧
      SameMap SameOwner owners q.owners ∧ ExactlyProvided now ans 0 marks ((q.marks.getD []).map (fun i => (i.type, i.jwt))) ∧
      s.policy = none ∧ s.constraints = none ∧ s.crit = [] ∧ s.policyCrit = [] ∧ s.iss = id ∧ s.sub = id ∧ s.hints = hints.getD [] ∧
      S.jwks C = .ok ks ∧ s.jwks = some (ks.map X.N.key) ∧ Signed (jwsOracle C keyOf msgOf) s.jwks s ∧
      ∀ t, now + 2000 ≤ t → t ≤ now + second * (if lifetime ≤ 0 then 86400 else lifetime) - 2000 → s.timeValid t = true := by
  unfold newFedConfig at hf
  split at hf
  · cases hf
  rename_i ks hks
  cases hf
  obtain ⟨q, s, h1, _, hr, h3, h4, h5, h6, _⟩ := C111_statement_partial C hC X keyOf msgOf P ser hP S _ hp j hj ks hks (hX ks hks)
  have hkeys : s.jwks = some (ks.map X.N.key) := by
    have hk : s.jwks.getD [] = ks.map X.N.key := h4.keys
    cases hq : s.jwks with
    | none =>
      rw [hq] at hk
      exact absurd (List.map_eq_nil_iff.mp hk.symm) (keyToJWKS_ne hks)
    | some l => rw [hq] at hk; exact congrArg some hk
  have hmarks : (q.marks.getD []).map (fun i => (i.type, i.jwt)) = publishedMarks now ans 0 marks := by
    have hl : ∀ (a b : List MarkInfo), SameList SameInfo a b → b.map (fun i => (i.type, i.jwt)) = a.map (fun i => (i.type, i.jwt)) := by
      intro a b hab
      apply List.ext_getElem?
      intro n
      have := hab n
      rw [List.getElem?_map, List.getElem?_map]
      cases ha : a[n]? <;> cases hb : b[n]? <;> rw [ha, hb] at this <;> cases this
      · rename_i e; simp only [Option.map_some]; rw [e.type, e.jwt]
    rw [hl _ _ h3.marks]
    simp only [FedConfig.payload, ESPayload.asWritten]
    cases publishedMarks now ans 0 marks with
    | nil => rfl
    | cons m l =>
      simp only [Option.getD_some, List.map_map]
      exact List.map_id _
  have hpol : s.policy = none := by
    have := h4.policy
    cases hs : s.policy with
    | none => rfl
    | some x => rw [hs] at this; cases this
  refine ⟨q, s, ks, h1, hr, h3.metadata, h4.metadata, h3.extra, h3.issuers, h3.owners, ?_, hpol, h4.constraints, h4.crit, h4.policyCrit, h4.iss, h4.sub, h4.hints, hks, hkeys, ?_, ?_⟩
  · rw [hmarks]; exact publishedMarks_exact now ans marks 0
  · rw [hkeys]; exact h5
  · intro t ht1 ht2
    apply h6
    refine ⟨ht1, ?_⟩
    show t ≤ (now : Int) + wrap64 (second * (if lifetime ≤ 0 then defaultLifetime else lifetime)) - 2000
    have hw : wrap64 (second * (if lifetime ≤ 0 then defaultLifetime else lifetime)) = second * (if lifetime ≤ 0 then 86400 else lifetime) := by
      unfold wrap64 second defaultLifetime
      split <;> omega
    rw [hw]
    exact ht2

theorem info_same (m : String × String) : markInfoJV ⟨m.1, m.2, []⟩ = infoJSON m := by
  have h : ¬ ("trust_mark_type" < "trust_mark") := by decide
  show JV.obj (insertMember ("trust_mark_type", .str m.1) [("trust_mark", .str m.2)]) = _
  simp only [insertMember, if_neg h]
  rfl

/-- The configuration made from Go values is the one of Model/FedEntity, which C44 is about. -/
theorem config_struct (K : KeyCodec) (f : FedConfig) (now : Time) (ans : Nat → Option String) :
    (f.payload now ans).struct K = (f.toEntity K).struct ((f.toEntity K).payload now ans) := by
  have hm : (match (f.payload now ans).marks with
      | none => none
      | some l => if l.isEmpty then none else some (JV.arr (l.map markInfoJV))) =
      if (publishedMarks now ans 0 f.marks).isEmpty then none else some (JV.arr ((publishedMarks now ans 0 f.marks).map infoJSON)) := by
    unfold FedConfig.payload
    dsimp only
    cases hp : publishedMarks now ans 0 f.marks with
    | nil => rfl
    | cons m l =>
      simp only [List.map_cons, List.isEmpty_cons, Bool.false_eq_true, if_false, List.map_map, info_same]
      have : (markInfoJV ∘ fun m : String × String => (⟨m.1, m.2, []⟩ : MarkInfo)) = infoJSON := funext info_same
      rw [this]
  have e : ∀ a b : JStruct, a.known = b.known → a.extra = b.extra → a = b := by
    rintro ⟨_, _⟩ ⟨_, _⟩ h1 h2
    cases h1; cases h2; rfl
  refine e _ _ ?_ rfl
  funext t
  by_cases h1 : t = "iss"
  · subst h1; rfl
  by_cases h2 : t = "sub"
  · subst h2; rfl
  by_cases h3 : t = "iat"
  · subst h3; rfl
  by_cases h4 : t = "exp"
  · subst h4; rfl
  by_cases h5 : t = "jwks"
  · subst h5; rfl
  by_cases h6 : t = "aud"
  · subst h6; rfl
  by_cases h7 : t = "authority_hints"
  · subst h7; rfl
  by_cases h8 : t = "metadata"
  · subst h8; rfl
  by_cases h9 : t = "metadata_policy"
  · subst h9; rfl
  by_cases h10 : t = "constraints"
  · subst h10; rfl
  by_cases h11 : t = "crit"
  · subst h11; rfl
  by_cases h12 : t = "metadata_policy_crit"
  · subst h12; rfl
  by_cases h13 : t = "trust_marks"
  · subst h13
    refine Eq.trans ?_ hm
    show (match (f.payload now ans).marks with
      | none => none
      | some l => if l.isEmpty then none else some (JV.arr (l.map markInfoJV))) = _
    cases (f.payload now ans).marks <;> rfl
  by_cases h14 : t = "trust_mark_issuers"
  · subst h14; rfl
  by_cases h15 : t = "trust_mark_owners"
  · subst h15; rfl
  by_cases h16 : t = "source_endpoint"
  · subst h16; rfl
  by_cases h17 : t = "trust_anchor_id"
  · subst h17; rfl
  simp only [ESPayload.struct, FedEntity.struct, if_neg h1, if_neg h2, if_neg h3, if_neg h4, if_neg h5, if_neg h6, if_neg h7, if_neg h8, if_neg h9, if_neg h10, if_neg h11, if_neg h12, if_neg h13,
    if_neg h14, if_neg h15, if_neg h16, if_neg h17]

/-! ## Cases that meet the hypotheses -/

namespace ExP
open ExS

/-- The entity's signer. -/
def S : JSigner := ⟨some 7, "ES512"⟩

/-- The entity's published key. -/
def pk : JKey := ⟨some (exCrypto.thumb 7), some "sig", some "ES512", 7⟩

/-- Readers that number the one key and the one message. -/
def X : Reader := ⟨codec, opq, ⟨fun _ => 3, fun _ => 0⟩, fun _ => 5⟩

/-- Metadata of a leaf or intermediate. -/
def meta0 : JMetadata := ⟨fun t => match t with | .fed => some (fed "https://ia.example/fetch") | _ => none, []⟩

theorem faithful (j : Jws) : Faithful X (fun _ => pk) (fun _ => j) [pk] [j] where
  keys := codec_ok
  maps := opq_map
  keyNumbers := by intro k hk; exact (List.mem_singleton.mp hk).symm
  messages := by intro k hk; exact (List.mem_singleton.mp hk).symm

/-- A statement about a subordinate, with policies and constraints, is published. -/
example (ser : Jws → String) (P : String → Option Jws) (hP : ∀ j, P (ser j) = some j) : ∃ j q s, signStatement exCrypto codec S (payload ⟨some 1, none, none⟩) = .ok j ∧
    parseStmt P X.decode (ser j) = some s ∧ SameClaims (payload ⟨some 1, none, none⟩) q ∧ ReadAs X.N (payload ⟨some 1, none, none⟩) s ∧ s.timeValid 1700000000123999999 = true := by
  obtain ⟨j, hj⟩ : ∃ j, signStatement exCrypto codec S (payload ⟨some 1, none, none⟩) = .ok j := ⟨_, rfl⟩
  obtain ⟨q, s, h1, _, _, h3, h4, _, h6, _⟩ := C111_statement_partial exCrypto exScheme X (fun _ => pk) (fun _ => j) P ser hP S _
    (payload_ok ⟨some 1, none, none⟩ (.inl rfl)) j hj [pk] rfl (faithful j)
  exact ⟨j, q, s, hj, h1, h3, h4, h6 _ ⟨by show (1700000000123456789 : Int) + 2000 ≤ 1700000000123999999; decide,
    by show (1700000000123999999 : Int) ≤ 1700086400123456789 - 2000; decide⟩⟩

/-- The payload of the configuration of an entity with metadata, hints, a trust mark that is not refreshed, and additional claims. -/
theorem config_ok (f0 : FedConfig) (h : newFedConfig exCrypto "https://ia.example" (some ["https://ta.example"]) (some meta0) S 0 [("jti", .str "1")] = .ok f0)
    (marks : List OwnMark) (ans : Nat → Option String) : PayloadOk opq ({ f0 with marks := marks, issuers := [], owners := [] }.payload 1700000000123456789 ans) := by
  cases h
  refine { iat := ?_, exp := ?_, maxPath := ?_, metadata := ?_, policy := ?_, marks := ?_, issuers := ?_, owners := ?_, extra := ?_ }
  · show |(1700000000123456789 : Int)| ≤ 2 ^ 62; decide
  · show |(1700000000123456789 : Int) + wrap64 (second * defaultLifetime)| ≤ 2 ^ 62; decide
  · intro c n h1; cases h1
  · intro m h
    cases h
    refine ⟨⟨by simp [AMap.WF, AMap.keys, meta0], by intro k hk; cases hk⟩, ?_⟩
    intro t s hs
    cases t <;> first | (cases hs; exact fed_ok _) | cases hs
  · intro q h; cases h
  · intro i hi
    have : i.extra = [] := by
      simp only [FedConfig.payload] at hi
      split at hi
      · cases hi
      · obtain ⟨m, _, rfl⟩ := List.mem_map.mp hi
        rfl
    rw [this]
    exact ⟨by simp [AMap.WF, AMap.keys], by intro k hk; cases hk⟩
  · simp [FedConfig.payload, AMap.WF, AMap.keys]
  · simp [FedConfig.payload, AMap.WF, AMap.keys]
  · exact ⟨by simp [FedConfig.payload, AMap.WF, AMap.keys], show ∀ k ∈ ["jti"], ∀ t ∈ entityStatementTags, foldName t ≠ foldName k by decide⟩

/-- A configuration is published. -/
example (ser : Jws → String) (P : String → Option Jws) (hP : ∀ j, P (ser j) = some j) (marks : List OwnMark) (ans : Nat → Option String) :
    ∃ j s, parseStmt P X.decode (ser j) = some s ∧ s.sub = "https://ia.example" ∧ s.jwks = some [3] ∧
      Signed (jwsOracle exCrypto (fun _ => pk) (fun _ => j)) (some [3]) s := by
  obtain ⟨f0, hf⟩ : ∃ f0, newFedConfig exCrypto "https://ia.example" (some ["https://ta.example"]) (some meta0) S 0 [("jti", .str "1")] = .ok f0 := ⟨_, rfl⟩
  obtain ⟨j, hj⟩ : ∃ j, { f0 with marks := marks, issuers := [], owners := [] }.jwt exCrypto codec S 1700000000123456789 ans = .ok j := ⟨_, rfl⟩
  obtain ⟨_, s, ks, h1, _, _, _, _, _, _, _, _, _, _, _, _, h3, _, h5, h6, h7, _⟩ := C111_configuration_partial exCrypto exScheme X (fun _ => pk) (fun _ => j) P ser hP S _ _ _ _ _ f0 hf marks [] []
    1700000000123456789 ans (by decide) (config_ok f0 hf marks ans) j hj (by intro ks hks; cases hks; exact faithful j)
  cases h5
  rw [h6] at h7
  exact ⟨j, s, h1, h3, h6, h7⟩

end ExP

end Oidfed
