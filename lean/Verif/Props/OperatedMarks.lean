import Verif.Spec.OperatedMarks
import Verif.Props.OperatedMeta
import Verif.Props.ComplianceChain
import Verif.Props.MarkJws
import Verif.Lemmas.Countable
/-!
# Trust marks in federations whose entities publish with this library: C119
-/

namespace Oidfed
open Spec

theorem faithful_mono {X : Reader} {keyOf : Nat → JKey} {msgOf : Nat → Jws} {ks ks' : List JKey} {js js' : List Jws} (h : Faithful X keyOf msgOf ks js)
    (hk : ∀ k ∈ ks', k ∈ ks) (hj : ∀ j ∈ js', j ∈ js) : Faithful X keyOf msgOf ks' js' where
  keys := h.keys
  maps := h.maps
  keyNumbers := fun k hk' => h.keyNumbers k (hk k hk')
  messages := fun j hj' => h.messages j (hj j hj')

/-- What is read of a published payload, with all its claims. -/
theorem published_claims {C : Crypto} {X : Reader} {keyOf : Nat → JKey} {msgOf : Nat → Jws} {ks : List JKey} {js : List Jws}
    (hX : Faithful X keyOf msgOf ks js) {signer : ID → JSigner} {P : String → Option Jws} {ser : Jws → String} (hP : ∀ j, P (ser j) = some j) {p : ESPayload}
    {j : Jws} (h : Published C X signer p j) :
    ∃ q, ESPayload.read X.K X.opq j.payload = some q ∧ SameClaims p.asWritten q ∧ verifyType j "entity-statement+jwt" = true ∧
      X.decode j = some (q.toStmt X.N (some (X.num j))) ∧ parseStmt P X.decode (ser j) = some (q.toStmt X.N (some (X.num j))) := by
  obtain ⟨q, h1, h2⟩ := C110_as_written_partial X.K hX.keys X.opq hX.maps p h.ok
  obtain ⟨h3, h4⟩ := signStatement_jws h.signed
  have hd : X.decode j = some (q.toStmt X.N (some (X.num j))) := by
    unfold Reader.decode decodeStmt
    rw [h3, h1]
    rfl
  refine ⟨q, by rw [h3]; exact h1, h2, h4, hd, ?_⟩
  unfold parseStmt
  rw [hP]
  simp only [h4, if_true]
  exact hd

/-- The chains that are returned have metadata, so that the first can be used. -/
theorem firstWithMetadata_all {cs : List Chain} (hne : cs ≠ []) (h : ∀ c ∈ cs, ∃ m, chainMetadata c = .ok m) : ∃ cm, firstWithMetadata cs = .ok cm := by
  cases cs with
  | nil => exact absurd rfl hne
  | cons c rest =>
    obtain ⟨m, hm⟩ := h c (List.mem_cons_self)
    exact ⟨(c, m), by simp only [firstWithMetadata, hm]⟩

theorem localChain_some {E : Env} {p : CallPos} {q : Req} {cs : List Chain} (h : q.resolver.validChains (E.world p) E.depth = .ok (some cs)) (hne : cs ≠ []) :
    ∃ cm, localChain E p q = some (.ok cm) := by
  obtain ⟨cs0, _, h2⟩ := validChains_eq h
  have hall : ∀ c ∈ sortedByPathLen (E.swaps p) cs, ∃ m, chainMetadata c = .ok m := fun c hc =>
    ((filterValidMetadata_mem _ _ h2 c).mp ((sortedByPathLen_perm _ _).mem_iff.mp hc)).2
  have hne' : sortedByPathLen (E.swaps p) cs ≠ [] := by
    intro e
    have hp := sortedByPathLen_perm (E.swaps p) cs
    rw [e] at hp
    exact hne hp.nil_eq.symm
  obtain ⟨cm, hcm⟩ := firstWithMetadata_all hne' hall
  refine ⟨cm, ?_⟩
  unfold localChain
  rw [h]
  simp only
  rw [if_neg (by simpa using hne), hcm]

/-- An issuer that resolves: its keys are found. -/
theorem issuer_resolves {C : Crypto} (hC : Scheme C) {X : Reader} {keyOf : Nat → JKey} {msgOf : Nat → Jws} {P : String → Option Jws} {ser : Jws → String}
    (hP : ∀ j, P (ser j) = some j) {signer : ID → JSigner} {E : Env} {p : CallPos} {tas : List ID} {types : List String} {e : ESPayload} {j : Jws} {as : List Authority} {top : Authority}
    (hW : (E.world p).sig = jwsOracle C keyOf msgOf) (hE : ReadsClaims E X msgOf)
    (hX : Faithful X keyOf msgOf (keysOf as) (jwtsOf j as))
    (hr : ResolvesTo C X (fun j => parseStmt P X.decode (ser j)) keyOf signer E p tas types e j as top) (ks : List JKey) (hks : e.jwks = some ks) (hne : ks ≠ []) :
    (∃ cm, localChain E p ⟨e.iss, tas, types⟩ = some (.ok cm)) ∧
      ∀ s, (E.world p).start e.iss = some s → ∃ r s', s.raw = some r ∧ E.parse r = some s' ∧ s'.jwks = some (ks.map X.N.key) := by
  obtain ⟨cs, hcs⟩ := hr.finishes
  obtain ⟨v, hv⟩ := hr.complies
  obtain ⟨_, h2, _⟩ := C131_operated_partial C hC X keyOf msgOf P ser hP signer (E.world p) hW ⟨tas.map (fun a => ⟨a, none⟩), e.iss, types⟩ e j as top hX hr.operated
    v hv hr.nonempty hr.served E.depth cs hcs
  refine ⟨localChain_some (q := ⟨e.iss, tas, types⟩) hcs (List.ne_nil_of_mem h2), ?_⟩
  intro s hs
  obtain ⟨q, g1, g2, g3, g4, g5⟩ := published_claims hX hP hr.operated.leaf_published
  rw [hr.served, g5] at hs
  cases hs
  refine ⟨X.num j, q.toStmt X.N (some (X.num j)), rfl, ?_, ?_⟩
  · rw [hE.parse, hX.messages j (by simp [jwtsOf]), if_pos g3]
    exact g4
  · show q.jwks.map _ = _
    have : SameElems q.jwks e.jwks := g2.keys
    unfold SameElems at this
    rw [hks] at this
    cases hq : q.jwks with
    | none => rw [hq] at this; exact absurd this.symm hne
    | some l => rw [hq] at this; have e : l = ks := this; rw [e]; rfl

theorem get_mapVal {α β : Type} (f : α → β) : ∀ (m : AMap α) (k : String), AMap.get (m.map (fun kv => (kv.1, f kv.2))) k = (AMap.get m k).map f
  | [], _ => rfl
  | (k', v) :: m, k => by
    simp only [List.map_cons, AMap.get]
    by_cases e : k' = k
    · simp [e]
    · simpa [e] using get_mapVal f m k

/-- A mark that was issued with the library is in order for whoever knows the keys of the issuer and of the owner, if there is one. -/
theorem issued_ok {C : Crypto} (hC : Scheme C) {keyOf : Nat → JKey} {msgOf : Nat → Jws} {P : String → Option Jws} {num : String → Nat} (hN : Numbered P num msgOf)
    {ser : Jws → String} (hP : ∀ j, P (ser j) = some j) {signer : ID → JSigner} {I : MarkIssuer} {s : MarkSpec} {now : Time} {type sub : String} {custom : List Int}
    {l : Int} {info : Info} {used usedD : Time} (hi : Issued C signer ser I s now type sub custom l info used) {ks : List Nat}
    (hk : (signer I.id).jwks C = .ok (ks.map keyOf)) (owner : Option Owner)
    (ho : ∀ o, owner = some o → ∃ O kso, o = ⟨O.id, some kso⟩ ∧ (signer O.id).jwks C = .ok (kso.map keyOf) ∧ Delegated C signer ser O s type I.id usedD) :
    info.type = type ∧ ∃ m, parseMark (readerOf P num) info.jwt = some m ∧ m.type = type ∧ m.iss = I.id ∧
      MarkOk (readerOf P num) (jwsOracle C keyOf msgOf) used usedD (some ks) owner m := by
  have hsign : SignsAs I.sign (readerOf P num) (jwsOracle C keyOf msgOf) ks "trust-mark+jwt" (I.payload s now sub custom) := by
    rw [hi.sign]; exact signsAs_signer (kind := .trustMark) hC hN hk (fun j _ => hP j)
  obtain ⟨ht, hok, _⟩ := issued_mark hi.spec hi.issued hsign hi.extra_keys hi.extra
  obtain ⟨_, m, hm, e1, _, e2, _⟩ := C39_claims_partial I _ _ ks now type sub custom info s hi.spec hi.issued hsign hi.extra_keys hi.extra l hi.lifetime hi.range.1 hi.range.2
  refine ⟨ht, m, hm, e2, e1, ?_⟩
  have hv : (info.verifyExternal (readerOf P num) (jwsOracle C keyOf msgOf) used usedD (some ks) owner.toList).1 = true := by
    cases owner with
    | none =>
      exact (C109_external_partial C hC keyOf msgOf P num hN (signer I.id) ser ks hk I hi.sign now type sub custom info s hi.spec hi.issued (fun j _ => hP j)
        hi.extra_keys hi.extra l hi.lifetime hi.range.1 hi.range.2 used usedD).1 hi.valid.1 hi.valid.2
    | some o =>
      obtain ⟨O, kso, rfl, hko, hd⟩ := ho o rfl
      obtain ⟨om, nowO, customO, lo, d1, d2, d3, d4, d5, d6, d7, d8, d9⟩ := hd.made
      exact C109_delegated_partial C hC keyOf msgOf P num hN (signer I.id) (signer O.id) ser ks kso hk hko I hi.sign O hd.sign now nowO type sub custom customO info s om
        hi.spec d1 hi.issued d2 hd.nonempty (fun j _ => hP j) (fun j _ => hP j) hi.extra_keys hi.extra d3 d4 l lo hi.lifetime d5 hi.range.1 hi.range.2 d6 d7 used usedD
        hi.valid.1 hi.valid.2 d8 d9
  rw [C37_verify_info _ _ _ _ _ _ _ hok] at hv
  obtain ⟨m', g1, _, g3⟩ := hv
  rw [hm] at g1
  cases g1
  have : owner.toList.head? = owner := by cases owner <;> rfl
  rw [this] at g3
  exact g3

/-- What a resolver works with: the trust mark claims of the entity and of one of the anchors, as configured. -/
theorem chain_claims {C : Crypto} {X : Reader} {keyOf : Nat → JKey} {msgOf : Nat → Jws} {P : String → Option Jws} {ser : Jws → String}
    (hP : ∀ j, P (ser j) = some j) {signer : ID → JSigner} {K : List JKey} {J : List Jws}
    (hX : Faithful X keyOf msgOf K J) {E : Env} (hE : ReadsClaims E X msgOf)
    {ts : List (ESPayload × Jws)} (ht : AnchorsPublish C X (fun j => parseStmt P X.decode (ser j)) signer E K J ts)
    {p : CallPos} {lp : ESPayload} {lj : Jws} (hl : Published C X signer lp lj) (hlj : lj ∈ J) (hlt : lp.iss ∉ publishedIDs ts) (hlh : lp.hints.getD [] ≠ [])
    (hls : (E.world p).start lp.iss = parseStmt P X.decode (ser lj)) {types : List String} {c : Chain} {leaf top : Stmt}
    (hp : Produces (E.world p) (Req.resolver ⟨lp.iss, publishedIDs ts, types⟩) c) (hhead : c.head? = some leaf) (hlast : c.getLast? = some top) :
    ∃ t ∈ ts, ∃ lq tq, SameClaims lp.asWritten lq ∧ SameClaims t.1.asWritten tq ∧ E.claims leaf = lq.toClaims X.N ∧ top = tq.toStmt X.N (some (X.num t.2)) ∧
      E.claims top = tq.toClaims X.N := by
  obtain ⟨lq, l1, l2, l3, l4, l5⟩ := published_claims hX hP hl
  obtain ⟨⟨s0, rest, hc0, hs0⟩, _⟩ := ExM.chain_answers hp
  change (E.world p).start lp.iss = some s0 at hs0
  rw [hls, l5] at hs0
  cases hs0
  have hleaf : leaf = restrictTypes types (lq.toStmt X.N (some (X.num lj))) := by
    rw [hc0] at hhead
    cases hhead
    rfl
  have hleafraw : leaf.raw = some (X.num lj) := by rw [hleaf]; unfold restrictTypes; split <;> rfl
  have hlc : E.claims leaf = lq.toClaims X.N := hE.claims leaf _ lq hleafraw (by rw [hX.messages lj hlj]; exact l1)
  have hlen2 : 2 ≤ c.length := by
    rcases C02_every_chain_anchored_partial _ _ _ hp with ⟨h, _⟩ | ⟨s0, h0, _, h2⟩
    · exact h
    · exfalso
      change (E.world p).start lp.iss = some s0 at h0
      rw [hls, l5] at h0
      cases h0
      rcases h2 with ⟨a, ha, he⟩ | h2
      · obtain ⟨x, hx, rfl⟩ := List.mem_map.mp ha
        refine hlt ?_
        have e : lp.iss = x := l2.iss.symm.trans he.symm
        rw [e]
        exact hx
      · exact hlh (l2.hints.symm.trans h2)
  obtain ⟨lf, subs, tp', hc1, ⟨sb, hsb, _⟩, _, _, hown', a, ha, hae⟩ := C01_chains_linked _ _ _ hp hlen2
  have htop : top = tp' := by
    rw [hc1, ← List.cons_append, List.getLast?_append] at hlast
    simpa using hlast.symm
  subst htop
  obtain ⟨t, htm, htid⟩ : ∃ t ∈ ts, top.iss = t.1.iss := by
    obtain ⟨x, hx, rfl⟩ := List.mem_map.mp ha
    obtain ⟨t, htm, rfl⟩ := List.mem_map.mp hx
    exact ⟨t, htm, hae.symm⟩
  have htserved : ∃ pos, (E.world p).ec pos t.1.iss = some top := by
    rw [← htid]
    have hsub : subs ≠ [] := by rintro rfl; cases hsb
    obtain ⟨pre, z, hz⟩ := List.eq_nil_or_concat subs |>.resolve_left hsub
    refine top_served (pre := lf :: pre) (s := z) (r := Req.resolver ⟨lp.iss, publishedIDs ts, types⟩) ?_
    rw [hc1, hz] at hp
    simpa using hp
  obtain ⟨pos, hpos⟩ := htserved
  obtain ⟨tq, t1, t2, t3, t4, t5⟩ := published_claims hX hP (ht.published t htm)
  have := ht.serves t htm p pos top hpos
  simp only at this
  rw [t5] at this
  cases this
  exact ⟨t, htm, lq, tq, l2, t2, hlc, rfl, hE.claims _ _ tq rfl (by rw [hX.messages t.2 (ht.jwts t htm)]; exact t1)⟩

/-- A mark issued with the library is accepted if the issuer's keys are found. -/
theorem good_accepted_keys {C : Crypto} (hC : Scheme C) {X : Reader} {keyOf : Nat → JKey} {msgOf : Nat → Jws} {P : String → Option Jws} {ser : Jws → String}
    (hP : ∀ j, P (ser j) = some j) {num : String → Nat} (hN : Numbered P num msgOf) {signer : ID → JSigner} {K : List JKey} {J : List Jws}
    (hX : Faithful X keyOf msgOf K J) {E : Env} (hR : E.reader = readerOf P num) (hS : E.sig = jwsOracle C keyOf msgOf)
    {tp tq : ESPayload} {tj : Jws} (t2 : SameClaims tp.asWritten tq)
    (htc : E.claims (tq.toStmt X.N (some (X.num tj))) = tq.toClaims X.N)
    {p : CallPos} {k : Nat} {type jwt : String} {rec : CallPos → Req → Option (Res Payload)}
    {I : MarkIssuer} {s : MarkSpec} {now : Time} {sub : String} {custom : List Int} {l : Int} {info : Info} (hI : Issued C signer ser I s now type sub custom l info (E.now p k).1)
    (hjwt : jwt = info.jwt) (hal : LetsIssue tp type I.id) (ho : OwnerOk C signer ser tp K s type I.id (E.now p k).2)
    (hkeys : ∃ ks, (signer I.id).jwks C = .ok ks ∧ (∀ k ∈ ks, k ∈ K) ∧
      issuerKeys E (p ++ [k]) (rec (p ++ [k])) (E.anchorOf (tq.toStmt X.N (some (X.num tj)))) I.id = some (.ok (some (ks.map X.N.key)))) :
    ∃ m keys, parseMark E.reader jwt = some m ∧ m.type = type ∧ IssuerAllowed (E.anchorOf (tq.toStmt X.N (some (X.num tj)))) m.type m.iss ∧
      issuerKeys E (p ++ [k]) (rec (p ++ [k])) (E.anchorOf (tq.toStmt X.N (some (X.num tj)))) m.iss = some (.ok keys) ∧
      MarkOk E.reader E.sig (E.now p k).1 (E.now p k).2 keys (AMap.get (E.anchorOf (tq.toStmt X.N (some (X.num tj)))).owners m.type) m := by
  subst hjwt
  have hnums : ∀ ks : List JKey, (∀ k ∈ ks, k ∈ K) → (ks.map X.N.key).map keyOf = ks := by
    intro ks hks
    rw [List.map_map]
    conv => rhs; rw [← List.map_id ks]
    exact List.map_congr_left (fun k hk => hX.keyNumbers k (hks k hk))
  obtain ⟨ks, hsig, hksK, hkeys⟩ := hkeys
  obtain ⟨hty, m, hm, m1, m2, m3⟩ := issued_ok hC hN hP (usedD := (E.now p k).2) hI (ks := ks.map X.N.key) (by rw [hnums ks hksK]; exact hsig)
    (AMap.get (tq.toClaims X.N).owners type) (by
      intro o hoo
      change AMap.get (tq.owners.map _) type = some o at hoo
      rw [get_mapVal (fun v : OwnerInfo => (⟨v.id, v.jwks.map (fun ks => ks.map X.N.key)⟩ : Owner))] at hoo
      obtain ⟨oi, h1, rfl⟩ := Option.map_eq_some_iff.mp hoo
      have hrel : Option.Rel SameOwner (AMap.get tp.owners type) (AMap.get tq.owners type) := t2.owners type
      rw [h1] at hrel
      cases hpo : AMap.get tp.owners type with
      | none => rw [hpo] at hrel; cases hrel
      | some po =>
        rw [hpo] at hrel
        cases hrel
        rename_i hso
        obtain ⟨O, kso, o1, o2, o3, o4, o5⟩ := ho po hpo
        refine ⟨O, kso.map X.N.key, ?_, by rw [hnums kso o4]; exact o3, o5⟩
        have hke := hso.keys
        unfold SameElems at hke
        rw [o2] at hke
        cases hq : oi.jwks with
        | none => rw [hq] at hke; exact absurd hke (keyToJWKS_ne o3)
        | some l =>
          rw [hq] at hke
          have e : kso = l := hke
          simp only [Option.map_some, o1, hso.id, e])
  refine ⟨m, some (ks.map X.N.key), by rw [hR]; exact hm, m1, ?_, by rw [m2]; exact hkeys, ?_⟩
  · intro mm ll e1 e2
    rw [m1] at e2
    rw [m2]
    change (E.claims _).issuers = some mm at e1
    rw [htc] at e1
    cases e1
    rw [get_mapVal (fun v : Option (List ID) => v.getD [])] at e2
    obtain ⟨il, h1, rfl⟩ := Option.map_eq_some_iff.mp e2
    have hrel : Option.Rel Eq (AMap.get tp.issuers type) (AMap.get tq.issuers type) := t2.issuers type
    rw [h1] at hrel
    cases hpo : AMap.get tp.issuers type with
    | none => rw [hpo] at hrel; cases hrel
    | some po =>
      rw [hpo] at hrel
      cases hrel
      rename_i e
      subst e
      exact hal _ hpo
  · rw [m1]
    change MarkOk _ _ _ _ _ (AMap.get (E.claims _).owners type) m
    rw [hR, hS, htc]
    exact m3

/-- A good mark is accepted. -/
theorem good_accepted {C : Crypto} (hC : Scheme C) {X : Reader} {keyOf : Nat → JKey} {msgOf : Nat → Jws} {P : String → Option Jws} {ser : Jws → String}
    (hP : ∀ j, P (ser j) = some j) {num : String → Nat} (hN : Numbered P num msgOf) {signer : ID → JSigner} {K : List JKey} {J : List Jws}
    (hX : Faithful X keyOf msgOf K J) {E : Env} (hR : E.reader = readerOf P num) (hS : E.sig = jwsOracle C keyOf msgOf)
    (hW : ∀ p, (E.world p).sig = jwsOracle C keyOf msgOf) (hE : ReadsClaims E X msgOf)
    {tp tq : ESPayload} {tj : Jws} (hown : tp.sub = tp.iss) (htk : ∀ k ∈ tp.jwks.getD [], k ∈ K) (t2 : SameClaims tp.asWritten tq)
    (htc : E.claims (tq.toStmt X.N (some (X.num tj))) = tq.toClaims X.N)
    {p : CallPos} {k : Nat} {type jwt : String} (hg : GoodMark C X (fun j => parseStmt P X.decode (ser j)) ser keyOf signer E tp K J p k type jwt) (fuel : Nat) :
    ∃ m keys, parseMark E.reader jwt = some m ∧ m.type = type ∧ IssuerAllowed (E.anchorOf (tq.toStmt X.N (some (X.num tj)))) m.type m.iss ∧
      issuerKeys E (p ++ [k]) (Default.loc.resolve E (fuel + 1) (p ++ [k])) (E.anchorOf (tq.toStmt X.N (some (X.num tj)))) m.iss = some (.ok keys) ∧
      MarkOk E.reader E.sig (E.now p k).1 (E.now p k).2 keys (AMap.get (E.anchorOf (tq.toStmt X.N (some (X.num tj)))).owners m.type) m := by
  obtain ⟨I, s, now, sub, custom, l, info, hI, rfl, hal, hf, ho⟩ := hg
  have htsub : (tq.toStmt X.N (some (X.num tj))).sub = tp.iss := t2.sub.trans hown
  refine good_accepted_keys hC hP hN hX hR hS t2 htc (rec := Default.loc.resolve E (fuel + 1)) hI rfl hal ho ?_
  have : ∃ ks, (signer I.id).jwks C = .ok ks ∧ (∀ k ∈ ks, k ∈ K) ∧
      issuerKeys E (p ++ [k]) (Default.loc.resolve E (fuel + 1) (p ++ [k])) (E.anchorOf (tq.toStmt X.N (some (X.num tj)))) I.id =
        some (.ok (some (ks.map X.N.key))) := by
    rcases hf with ⟨e, ks, h1, h2⟩ | ⟨e, ip, ij, as, itop, e1, ⟨ks, h1, h2⟩, h3, h4, h5⟩
    · refine ⟨ks, h2, by simpa [h1] using htk, issuerKeys_found (by simpa using keyToJWKS_ne h2) (.inl ⟨e.trans htsub.symm, ?_⟩)⟩
      have hs : SameElems tq.jwks tp.jwks := t2.keys
      unfold SameElems at hs
      rw [h1] at hs
      show tq.jwks.map _ = _
      cases hq : tq.jwks with
      | none => rw [hq] at hs; exact absurd hs.symm (keyToJWKS_ne h2)
      | some l => rw [hq] at hs; have e : l = ks := hs; rw [e]; rfl
    · obtain ⟨g1, g2⟩ := issuer_resolves hC hP (hW _) hE (faithful_mono hX (fun k hk => h4 k (List.mem_append_right _ hk)) h5) h3 ks h1 (keyToJWKS_ne h2)
      refine ⟨ks, h2, fun k hk => h4 k (by simp [h1, hk]), issuerKeys_found (by simpa using keyToJWKS_ne h2) (.inr ⟨?_, ?_, ?_⟩)⟩
      · intro e'
        exact e (e'.trans htsub)
      · show ∃ cm, localChain E (p ++ [k]) ⟨I.id, [(tq.toStmt X.N (some (X.num tj))).sub], []⟩ = _
        rw [htsub, ← e1]
        exact g1
      · rw [← e1]; exact g2
  exact this

/-- The mark is accepted with the resolver `rec` for issuers, whatever is read of the anchor's configuration. -/
def AcceptedVia (X : Reader) (E : Env) (rec : CallPos → Req → Option (Res Payload)) (tp : ESPayload) (tj : Jws) (p : CallPos) (k : Nat) (type jwt : String) : Prop :=
  ∀ tq, SameClaims tp.asWritten tq → E.claims (tq.toStmt X.N (some (X.num tj))) = tq.toClaims X.N →
    ∃ m keys, parseMark E.reader jwt = some m ∧ m.type = type ∧ IssuerAllowed (E.anchorOf (tq.toStmt X.N (some (X.num tj)))) m.type m.iss ∧
      issuerKeys E (p ++ [k]) (rec (p ++ [k])) (E.anchorOf (tq.toStmt X.N (some (X.num tj)))) m.iss = some (.ok keys) ∧
      MarkOk E.reader E.sig (E.now p k).1 (E.now p k).2 keys (AMap.get (E.anchorOf (tq.toStmt X.N (some (X.num tj)))).owners m.type) m

/-- C119 with any resolver for issuers. -/
theorem reported_of_accepted (C : Crypto) (X : Reader) (keyOf : Nat → JKey) (msgOf : Nat → Jws) (P : String → Option Jws) (ser : Jws → String)
    (hP : ∀ j, P (ser j) = some j) (signer : ID → JSigner) (K : List JKey) (J : List Jws)
    (hX : Faithful X keyOf msgOf K J) (E : Env) (hE : ReadsClaims E X msgOf)
    (ts : List (ESPayload × Jws)) (ht : AnchorsPublish C X (fun j => parseStmt P X.decode (ser j)) signer E K J ts)
    (p : CallPos) (lp : ESPayload) (lj : Jws) (hl : Published C X signer lp lj) (hlj : lj ∈ J) (hlt : lp.iss ∉ publishedIDs ts) (hlh : lp.hints.getD [] ≠ [])
    (hls : (E.world p).start lp.iss = parseStmt P X.decode (ser lj))
    (D : Default) (fuel : Nat)
    (types : List String) (r : Payload) (h : localPayload E (D.resolve E fuel) p ⟨lp.iss, publishedIDs ts, types⟩ = some (.ok r)) :
    ∃ t ∈ ts, r.chain.getLast? = some (some (X.num t.2)) ∧ ∀ (k : Nat) (x : MarkInfo), (lp.marks.getD [])[k]? = some x →
      AcceptedVia X E (D.resolve E fuel) t.1 t.2 p k x.type x.jwt → (x.type, x.jwt) ∈ r.marks.map (fun i => (i.type, i.jwt)) := by
  have hi : ∀ s, ∀ i ∈ (E.claims s).marks, InfoOk E.reader i := by
    intro s i hi m hm
    rw [hE.fresh s i hi] at hm
    cases hm
  obtain ⟨c, leaf, top, hp, hhead, hlast, hchain, _, keep, hlen, hmarks, hkeep⟩ := C40_reported_marks_partial E D fuel p _ r h hi
  obtain ⟨t, htm, lq, tq, l2, t2, hlc, rfl, htc⟩ := chain_claims hP hX hE ht hl hlj hlt hlh hls hp hhead hlast
  refine ⟨t, htm, ?_, ?_⟩
  · rw [hchain, List.getLast?_map, hlast]
    rfl
  intro k x hk hg
  have hlm : Option.Rel SameInfo (lp.marks.getD [])[k]? (lq.marks.getD [])[k]? := l2.marks k
  rw [hk] at hlm
  cases hqm : (lq.marks.getD [])[k]? with
  | none => rw [hqm] at hlm; cases hlm
  | some y =>
    rw [hqm] at hlm
    cases hlm
    rename_i hxy
    have hgk : (E.claims leaf).marks[k]? = some ⟨y.type, y.jwt, y.extra, none⟩ := by
      rw [hlc]
      show ((lq.marks.getD []).map _)[k]? = _
      rw [List.getElem?_map, hqm]
      rfl
    obtain ⟨m, keys, g1, g2, g3, g4, g5⟩ := hg tq t2 htc
    have hkt := (hkeep k _ hgk).mpr ⟨m, keys, by show parseMark _ y.jwt = _; rw [← hxy.jwt]; exact g1, g2.trans hxy.type, g3, g4, g5⟩
    rw [hmarks]
    refine List.mem_map.mpr ⟨(⟨y.type, y.jwt, y.extra, none⟩, true), List.mem_filter.mpr ⟨?_, rfl⟩, by simp [hxy.type, hxy.jwt]⟩
    refine List.mem_iff_getElem?.mpr ⟨k, ?_⟩
    rw [List.getElem?_zip_eq_some]
    exact ⟨hgk, hkt⟩

/-- **C119** (part): a trust mark issued with the library, and put by the entity into its configuration, is reported by everybody who resolves the entity with the local resolver to
anchors, if the one at which the trust chain ends lets the issuer issue marks of the type, as long as the mark (and the delegation, if the anchor lists an owner for the type) is valid and the issuer is that anchor or resolves to it.
Everybody publishes with the library. The assumptions about payloads are those of C110 and C39; the issuer's superiors configure no policies; times keep two microseconds
from issuing and expiry. -/
theorem C119_reported_partial (C : Crypto) (hC : Scheme C) (X : Reader) (keyOf : Nat → JKey) (msgOf : Nat → Jws) (P : String → Option Jws) (ser : Jws → String)
    (hP : ∀ j, P (ser j) = some j) (num : String → Nat) (hN : Numbered P num msgOf) (signer : ID → JSigner) (K : List JKey) (J : List Jws)
    (hX : Faithful X keyOf msgOf K J) (E : Env) (hR : E.reader = readerOf P num) (hS : E.sig = jwsOracle C keyOf msgOf)
    (hW : ∀ p, (E.world p).sig = jwsOracle C keyOf msgOf) (hE : ReadsClaims E X msgOf)
    (ts : List (ESPayload × Jws)) (ht : AnchorsPublish C X (fun j => parseStmt P X.decode (ser j)) signer E K J ts)
    (p : CallPos) (lp : ESPayload) (lj : Jws) (hl : Published C X signer lp lj) (hlj : lj ∈ J) (hlt : lp.iss ∉ publishedIDs ts) (hlh : lp.hints.getD [] ≠ [])
    (hls : (E.world p).start lp.iss = parseStmt P X.decode (ser lj))
    (types : List String) (fuel : Nat) (r : Payload) (h : localPayload E (Default.loc.resolve E (fuel + 1)) p ⟨lp.iss, publishedIDs ts, types⟩ = some (.ok r)) :
    ∃ t ∈ ts, r.chain.getLast? = some (some (X.num t.2)) ∧ ∀ (k : Nat) (x : MarkInfo), (lp.marks.getD [])[k]? = some x →
      GoodMark C X (fun j => parseStmt P X.decode (ser j)) ser keyOf signer E t.1 K J p k x.type x.jwt → (x.type, x.jwt) ∈ r.marks.map (fun i => (i.type, i.jwt)) := by
  obtain ⟨t, htm, h1, h2⟩ := reported_of_accepted C X keyOf msgOf P ser hP signer K J hX E hE ts ht p lp lj hl hlj hlt hlh hls .loc (fuel + 1) types r h
  exact ⟨t, htm, h1, fun k x hk hg => h2 k x hk (fun _ t2 htc => good_accepted hC hP hN hX hR hS hW hE (ht.own t htm) (ht.keys t htm) t2 htc hg fuel)⟩

/-- If all marks are accepted, all are returned. -/
theorem verifiedFederation_all {R : JWTReader} {sig : SigOracle} {now : Nat → Time × Time} {keysFor : Nat → ID → Option (Res Keys)} {ta : MarkAnchor} :
    ∀ (is : List Info) (n : Nat), (∀ k i, is[k]? = some i → InfoOk R i ∧ ∃ m keys, parseMark R i.jwt = some m ∧ m.type = i.type ∧ IssuerAllowed ta m.type m.iss ∧
      keysFor (n + k) m.iss = some (.ok keys) ∧ MarkOk R sig (now (n + k)).1 (now (n + k)).2 keys (AMap.get ta.owners m.type) m) →
    ∃ r, verifiedFederation R sig now keysFor ta n is = some (.ok r) ∧ r.map (fun i => (i.type, i.jwt)) = is.map (fun i => (i.type, i.jwt))
  | [], _, _ => ⟨[], rfl, rfl⟩
  | i :: is, n, h => by
    obtain ⟨hi, m, keys, h1, h2, h3, h4, h5⟩ := h 0 i rfl
    obtain ⟨i', hv⟩ := federation_of_external (sig := sig) (nowM := (now n).1) (nowD := (now n).2) (ta := ta) hi h1 h4 h3 (by
      rw [C37_verify_info _ _ _ _ _ _ _ hi]
      refine ⟨m, h1, h2, ?_⟩
      have : (AMap.get ta.owners m.type).toList.head? = AMap.get ta.owners m.type := by cases AMap.get ta.owners m.type <;> rfl
      rw [this]
      exact h5)
    obtain ⟨_, _, e1, e2, _⟩ := infoFederation_spec hi hv
    obtain ⟨r, hr, hm⟩ := verifiedFederation_all is (n+1) (fun k j hj => by
      have := h (k+1) j hj
      rw [show n + (k + 1) = n + 1 + k by omega] at this
      exact this)
    refine ⟨i' :: r, ?_, by simp [hm, e1, e2]⟩
    rw [Nat.add_zero] at hv
    simp only [verifiedFederation, hv, hr, if_true]

/-- C119 with any resolver for issuers. -/
theorem resolved_of_accepted (C : Crypto) (hC : Scheme C) (X : Reader) (keyOf : Nat → JKey) (msgOf : Nat → Jws) (P : String → Option Jws) (ser : Jws → String)
    (hP : ∀ j, P (ser j) = some j) (signer : ID → JSigner) (K : List JKey) (J : List Jws)
    (hX : Faithful X keyOf msgOf K J) (E : Env) 
    (hW : ∀ p, (E.world p).sig = jwsOracle C keyOf msgOf) (hE : ReadsClaims E X msgOf)
    (ts : List (ESPayload × Jws)) (ht : AnchorsPublish C X (fun j => parseStmt P X.decode (ser j)) signer E K J ts)
    (p : CallPos) (types : List String) (lp : ESPayload) (lj : Jws) (as : List Authority) (top : Authority)
    (hl : ResolvesTo C X (fun j => parseStmt P X.decode (ser j)) keyOf signer E p (publishedIDs ts) types lp lj as top)
    (hk : ∀ k ∈ keysOf as, k ∈ K) (hj : ∀ j ∈ jwtsOf lj as, j ∈ J)
    (D : Default) (fuel : Nat) (hg : ∀ t ∈ ts, ∀ k x, (lp.marks.getD [])[k]? = some x → AcceptedVia X E (D.resolve E fuel) t.1 t.2 p k x.type x.jwt) :
    ∃ r, localPayload E (D.resolve E fuel) p ⟨lp.iss, publishedIDs ts, types⟩ = some (.ok r) ∧
      r.marks.map (fun i => (i.type, i.jwt)) = (lp.marks.getD []).map (fun x => (x.type, x.jwt)) := by
  obtain ⟨cs, hcs⟩ := hl.finishes
  obtain ⟨v, hv⟩ := hl.complies
  obtain ⟨_, h2, _⟩ := C131_operated_partial C hC X keyOf msgOf P ser hP signer (E.world p) (hW p) ⟨(publishedIDs ts).map (fun a => ⟨a, none⟩), lp.iss, types⟩ lp lj as top
    (faithful_mono hX hk hj) hl.operated v hv hl.nonempty hl.served E.depth cs hcs
  obtain ⟨⟨c, md⟩, hlc⟩ := localChain_some (q := ⟨lp.iss, publishedIDs ts, types⟩) hcs (List.ne_nil_of_mem h2)
  obtain ⟨hp, _⟩ := localChain_ok hlc
  obtain ⟨a0, rest, has⟩ : ∃ a0 rest, as = a0 :: rest := by
    cases has : as with
    | nil => have := hl.operated.last; rw [has] at this; cases this
    | cons a0 rest => exact ⟨a0, rest, rfl⟩
  have ok0 := hl.operated.authorities 0 lp a0 rfl (by rw [has]; rfl)
  have hlt : lp.iss ∉ publishedIDs ts := by
    intro e
    exact ok0.below_not_anchor (by simpa using e)
  have hlh : lp.hints.getD [] ≠ [] := by
    intro e
    have := ok0.hinted
    rw [e] at this
    cases this
  obtain ⟨s0, leaf, _, hhead, _⟩ := C12_about_entity_partial _ _ _ hp
  have hcne : c ≠ [] := by rintro rfl; cases hhead
  obtain ⟨tops, hlast⟩ : ∃ t, c.getLast? = some t := ⟨_, List.getLast?_eq_some_getLast hcne⟩
  obtain ⟨t, htm, lq, tq, l2, t2, hlcl, rfl, htc⟩ := chain_claims hP hX hE ht hl.operated.leaf_published (hj lj (by simp [jwtsOf])) hlt hlh hl.served hp
    (List.head?_eq_getElem? ▸ hhead) hlast
  have hpairs : ((E.claims leaf).marks).map (fun i => (i.type, i.jwt)) = (lp.marks.getD []).map (fun x => (x.type, x.jwt)) := by
    rw [hlcl]
    show ((lq.marks.getD []).map _).map _ = _
    rw [List.map_map]
    apply List.ext_getElem?
    intro k
    rw [List.getElem?_map, List.getElem?_map]
    have : Option.Rel SameInfo (lp.marks.getD [])[k]? (lq.marks.getD [])[k]? := l2.marks k
    cases h1 : (lp.marks.getD [])[k]? <;> cases h2 : (lq.marks.getD [])[k]? <;> rw [h1, h2] at this <;> try cases this
    · rfl
    · rename_i hs
      simp [hs.type, hs.jwt]
  obtain ⟨r, hr, hrm⟩ := verifiedFederation_all (R := E.reader) (sig := E.sig) (now := E.now p)
    (keysFor := fun n iss => issuerKeys E (p ++ [n]) (D.resolve E fuel (p ++ [n])) (E.anchorOf (tq.toStmt X.N (some (X.num t.2)))) iss)
    (ta := E.anchorOf (tq.toStmt X.N (some (X.num t.2)))) (E.claims leaf).marks 0 (by
      intro k i hki
      refine ⟨(by intro m hm; rw [hE.fresh leaf i (List.mem_of_getElem? hki)] at hm; cases hm), ?_⟩
      have e := congrArg (fun l => l[k]?) hpairs
      simp only [List.getElem?_map, hki, Option.map_some] at e
      obtain ⟨x, hx, hxe⟩ := Option.map_eq_some_iff.mp e.symm
      simp only [Prod.mk.injEq] at hxe
      rw [Nat.zero_add, ← hxe.1, ← hxe.2]
      exact hg t htm k x hx tq t2 htc)
  refine ⟨⟨md, r, c.map Stmt.raw⟩, ?_, hrm.trans hpairs⟩
  unfold localPayload
  rw [hlc]
  simp only [List.head?_eq_getElem?, hhead, hlast, hr]

/-- **C119** with the resolution (part): an entity that resolves to one of the anchors, and all of whose trust marks are good for each of them, is resolved by the local resolver with all of them. -/
theorem C119_resolved_partial (C : Crypto) (hC : Scheme C) (X : Reader) (keyOf : Nat → JKey) (msgOf : Nat → Jws) (P : String → Option Jws) (ser : Jws → String)
    (hP : ∀ j, P (ser j) = some j) (num : String → Nat) (hN : Numbered P num msgOf) (signer : ID → JSigner) (K : List JKey) (J : List Jws)
    (hX : Faithful X keyOf msgOf K J) (E : Env) (hR : E.reader = readerOf P num) (hS : E.sig = jwsOracle C keyOf msgOf)
    (hW : ∀ p, (E.world p).sig = jwsOracle C keyOf msgOf) (hE : ReadsClaims E X msgOf)
    (ts : List (ESPayload × Jws)) (ht : AnchorsPublish C X (fun j => parseStmt P X.decode (ser j)) signer E K J ts)
    (p : CallPos) (types : List String) (lp : ESPayload) (lj : Jws) (as : List Authority) (top : Authority)
    (hl : ResolvesTo C X (fun j => parseStmt P X.decode (ser j)) keyOf signer E p (publishedIDs ts) types lp lj as top)
    (hk : ∀ k ∈ keysOf as, k ∈ K) (hj : ∀ j ∈ jwtsOf lj as, j ∈ J)
    (hg : ∀ t ∈ ts, ∀ k x, (lp.marks.getD [])[k]? = some x → GoodMark C X (fun j => parseStmt P X.decode (ser j)) ser keyOf signer E t.1 K J p k x.type x.jwt) (fuel : Nat) :
    ∃ r, localPayload E (Default.loc.resolve E (fuel + 1)) p ⟨lp.iss, publishedIDs ts, types⟩ = some (.ok r) ∧
      r.marks.map (fun i => (i.type, i.jwt)) = (lp.marks.getD []).map (fun x => (x.type, x.jwt)) :=
  resolved_of_accepted C hC X keyOf msgOf P ser hP signer K J hX E hW hE ts ht p types lp lj as top hl hk hj .loc (fuel + 1)
    (fun t htm k x hx _ t2 htc => good_accepted hC hP hN hX hR hS hW hE (ht.own t htm) (ht.keys t htm) t2 htc (hg t htm k x hx) fuel)

/-! ## A federation with an issuer and an owner

`l` is below `i`, which is below the anchor `t`. `i` issues marks of the type `tm`, which `o` owns, and `l` has one. -/

namespace ExTM
open ExS ExO

/-- `ExO.mk` with policies and the given trust mark claims. -/
def mkM (iss sub : ID) (hints : List ID) (m : Option JMetadata) (c : Constraints) (marks : Option (List MarkInfo)) (issuers : AMap (Option (List ID)))
    (owners : AMap OwnerInfo) : ESPayload :=
  { mk true iss sub hints m c with marks := marks, issuers := issuers, owners := owners }

def t0 : Time := 1700000000123456789

def owner (ser : Jws → String) : MarkOwner := ⟨"o", signerOf exCrypto (signer "o") ser, [⟨"tm", 0, "", []⟩]⟩

/-- The delegation for `i`. -/
def dJwt (ser : Jws → String) : String :=
  ser ⟨(owner ser).payload ⟨"tm", 0, "", []⟩ t0 "i" [], [⟨some "trust-mark-delegation+jwt", some (exCrypto.thumb 3), some "ES512", 3⟩]⟩

def spec (ser : Jws → String) : MarkSpec := ⟨"tm", 3600 * second, "", "", [("level", .str "high")], false, dJwt ser⟩

def issuer (ser : Jws → String) : MarkIssuer := newMarkIssuer "i" (signerOf exCrypto (signer "i") ser) [spec ser]

/-- The trust mark for `l`. -/
def tmJwt (ser : Jws → String) : String :=
  ser ⟨(issuer ser).payload (spec ser) t0 "l" [], [⟨some "trust-mark+jwt", some (exCrypto.thumb 2), some "ES512", 2⟩]⟩

def info (ser : Jws → String) : Info := ⟨"tm", tmJwt ser, [], some ⟨"i", "l", "tm", t0, some (t0 + 3600 * second), dJwt ser, none, none⟩⟩

theorem issued (ser : Jws → String) : (issuer ser).issue t0 "tm" "l" [] = some (info ser) := rfl

theorem delegated (ser : Jws → String) : (owner ser).delegate t0 "tm" "i" [] = some (dJwt ser) := rfl

def lCfg (ser : Jws → String) : ESPayload := mkM "l" "l" ["x", "i"] (some (md "")) ⟨none, none, none⟩ (some [⟨"tm", tmJwt ser, []⟩]) [] []
def iCfg : ESPayload := mkM "i" "i" ["t"] (some (md "i/fetch")) ⟨none, none, none⟩ none [] []
def il : ESPayload := mkM "i" "l" [] none ⟨none, none, none⟩ none [] []
def tCfg : ESPayload := mkM "t" "t" [] (some (md "t/fetch")) ⟨none, none, none⟩ none [("tm", some ["z", "i"])] [("tm", ⟨"o", some [pub 3]⟩)]
def ti : ESPayload := mkM "t" "i" [] none ⟨some 1, none, none⟩ none [] []

def X (numJ : Jws → Nat) : Reader := ⟨codec, opq, ⟨JKey.key, fun _ => 0⟩, numJ⟩

def ai : Authority := ⟨1, iCfg, jwt iCfg, il, jwt il⟩
def at' : Authority := ⟨0, tCfg, jwt tCfg, ti, jwt ti⟩

def W (ser : Jws → String) (msgOf : Nat → Jws) (read : Jws → Option Stmt) : World where
  start := fun id => if id = "l" then read (jwt (lCfg ser)) else if id = "i" then read (jwt iCfg) else none
  ec := fun _ id => if id = "i" then read (jwt iCfg) else if id = "t" then read (jwt tCfg) else none
  fetch := fun _ ep sub iss =>
    if ep = "i/fetch" ∧ sub = "l" ∧ iss = "i" then read (jwt il) else if ep = "t/fetch" ∧ sub = "i" ∧ iss = "t" then read (jwt ti) else none
  nowEC := fun _ => 1700000000123999999
  nowSub := fun _ => 1700000000123999999
  host := fun id => some id
  sig := jwsOracle exCrypto pub msgOf

/-- Trust mark claims as they are in the JWT. -/
def claims (numJ : Jws → Nat) (msgOf : Nat → Jws) (s : Stmt) : MarkClaims :=
  match s.raw.bind (fun n => ESPayload.read (X numJ).K (X numJ).opq (msgOf n).payload) with
  | none => ⟨[], none, []⟩
  | some q => q.toClaims (X numJ).N

def E (numJ : Jws → Nat) (msgOf : Nat → Jws) (ser : Jws → String) (P : String → Option Jws) (num : String → Nat) : Env where
  world := fun _ => W ser msgOf (fun j => parseStmt P (X numJ).decode (ser j))
  depth := 4
  swaps := fun _ => []
  anchorEC := fun _ _ _ => none
  issuerEC := fun _ _ => none
  http := fun _ _ _ _ => .failed
  now := fun _ _ => (1700000000123999999, 1700000000123999999)
  claims := claims numJ msgOf
  reader := readerOf P num
  parse := fun n => if verifyType (msgOf n) "entity-statement+jwt" then (X numJ).decode (msgOf n) else none
  sig := jwsOracle exCrypto pub msgOf

theorem mkM_published (numJ : Jws → Nat) (iss sub : ID) (hints : List ID) (m : Option JMetadata) (c : Constraints) (marks : Option (List MarkInfo))
    (issuers : AMap (Option (List ID))) (owners : AMap OwnerInfo) (hm : m = none ∨ ∃ ep, m = some (md ep)) (hc : c = ⟨none, none, none⟩ ∨ c = ⟨some 1, none, none⟩)
    (h1 : ∀ i ∈ marks.getD [], i.extra = []) (h2 : issuers.WF) (h3 : owners.WF) :
    Published exCrypto (X numJ) signer (mkM iss sub hints m c marks issuers owners) (jwt (mkM iss sub hints m c marks issuers owners)) where
  ok := { mk_ok true iss sub hints m c hm (by rcases hc with rfl | rfl; exact .inr rfl; exact .inl rfl) with
    marks := by
      intro i hi
      rw [h1 i hi]
      exact ⟨by simp [AMap.WF, AMap.keys], by intro k hk; cases hk⟩
    issuers := h2
    owners := h3 }
  signed := rfl

section
variable (numJ : Jws → Nat) (ser : Jws → String)

theorem p_lCfg : Published exCrypto (X numJ) signer (lCfg ser) (jwt (lCfg ser)) :=
  mkM_published numJ _ _ _ _ _ _ _ _ (.inr ⟨_, rfl⟩) (.inl rfl) (by simp) (by simp [AMap.WF, AMap.keys]) (by simp [AMap.WF, AMap.keys])
theorem p_iCfg : Published exCrypto (X numJ) signer iCfg (jwt iCfg) :=
  mkM_published numJ _ _ _ _ _ _ _ _ (.inr ⟨_, rfl⟩) (.inl rfl) (by simp) (by simp [AMap.WF, AMap.keys]) (by simp [AMap.WF, AMap.keys])
theorem p_il : Published exCrypto (X numJ) signer il (jwt il) :=
  mkM_published numJ _ _ _ _ _ _ _ _ (.inl rfl) (.inl rfl) (by simp) (by simp [AMap.WF, AMap.keys]) (by simp [AMap.WF, AMap.keys])
theorem p_tCfg : Published exCrypto (X numJ) signer tCfg (jwt tCfg) :=
  mkM_published numJ _ _ _ _ _ _ _ _ (.inr ⟨_, rfl⟩) (.inl rfl) (by simp) (by simp [AMap.WF, AMap.keys]) (by simp [AMap.WF, AMap.keys])
theorem p_ti : Published exCrypto (X numJ) signer ti (jwt ti) :=
  mkM_published numJ _ _ _ _ _ _ _ _ (.inl rfl) (.inr rfl) (by simp) (by simp [AMap.WF, AMap.keys]) (by simp [AMap.WF, AMap.keys])

end

/-- The keys and the JWTs of the federation. -/
def K : List JKey := [pub 1, pub 2, pub 3]
def J (ser : Jws → String) : List Jws := [jwt (lCfg ser), jwt iCfg, jwt il, jwt tCfg, jwt ti]

theorem faithful (numJ : Jws → Nat) (msgOf : Nat → Jws) (h : ∀ j, msgOf (numJ j) = j) (ser : Jws → String) : Faithful (X numJ) pub msgOf K (J ser) where
  keys := codec_ok
  maps := opq_map
  keyNumbers := by
    intro k hk
    simp only [K, List.mem_cons, List.not_mem_nil, or_false] at hk
    rcases hk with rfl | rfl | rfl <;> rfl
  messages := fun j _ => h j

theorem readsClaims (numJ : Jws → Nat) (msgOf : Nat → Jws) (ser : Jws → String) (P : String → Option Jws) (num : String → Nat) :
    ReadsClaims (E numJ msgOf ser P num) (X numJ) msgOf where
  fresh := by
    intro s i hi
    simp only [E, claims] at hi
    split at hi
    · cases hi
    · obtain ⟨x, _, rfl⟩ := List.mem_map.mp hi
      rfl
  claims := by
    intro s n q h1 h2
    simp only [E, claims, h1, Option.bind_some, h2]
  parse := fun _ => rfl

/-- The authority `t` above `i`, which is the leaf or above the leaf. -/
theorem t_ok (numJ : Jws → Nat) (msgOf : Nat → Jws) (ser : Jws → String) (read : Jws → Option Stmt) (leaf : ESPayload) (as : List Authority) (k : Nat)
    (hk : k ≤ 1) (hnew : "t" ∉ leaf.sub :: (as.take k).map (fun b => b.config.iss)) :
    AuthorityOk exCrypto (X numJ) read signer (W ser msgOf read) [⟨"t", none⟩] [] leaf as k iCfg at' where
  config := p_tCfg numJ
  about := p_ti numJ
  below_not_anchor := by decide
  hinted := rfl
  new := hnew
  own := rfl
  about_iss := rfl
  about_sub := rfl
  keys := ⟨_, rfl, rfl⟩
  serves_config := rfl
  serves_about := ⟨"t/fetch", ⟨by decide, _, _, rfl, rfl, rfl⟩, rfl⟩
  config_time := in_time _ rfl rfl
  about_time := in_time _ rfl rfl
  constraints := by
    intro c hc
    cases hc
    refine ⟨?_, ?_, ?_⟩
    · intro n hn
      cases hn
      show (k : Int) ≤ 1
      omega
    · intro id _ n hn; cases hn
    · intro ty _ ts hts; cases hts

theorem anchored : ∃ ta, FirstAnchor [⟨"t", none⟩] at'.config.iss ta ∧
    ((∃ ks, ta.jwks = some ks ∧ (signer ta.id).jwks exCrypto = .ok (ks.map pub)) ∨ (ta.jwks = none ∧ HasKeysOf exCrypto signer at'.config ta.id)) :=
  ⟨⟨"t", none⟩, ⟨[], [], rfl, rfl, by simp⟩, .inr ⟨rfl, _, rfl, rfl⟩⟩

theorem operated_l (numJ : Jws → Nat) (msgOf : Nat → Jws) (ser : Jws → String) (read : Jws → Option Stmt) :
    OperatedWith exCrypto (X numJ) read pub signer (W ser msgOf read) [⟨"t", none⟩] [] (lCfg ser) (jwt (lCfg ser)) [ai, at'] at' where
  leaf_published := p_lCfg numJ ser
  last := rfl
  anchor := anchored
  authorities := by
    intro k e a he ha
    match k with
    | 0 =>
      cases he; cases ha
      exact {
        config := p_iCfg numJ, about := p_il numJ, below_not_anchor := (show "l" ∉ ["t"] by decide), hinted := rfl, new := (show "i" ∉ ["l"] by decide), own := rfl
        about_iss := rfl, about_sub := rfl, keys := ⟨_, rfl, rfl⟩, serves_config := rfl, serves_about := ⟨"i/fetch", ⟨by decide, _, _, rfl, rfl, rfl⟩, rfl⟩
        config_time := in_time _ rfl rfl, about_time := in_time _ rfl rfl
        constraints := by
          intro c hc
          cases hc
          exact ⟨(by intro n hn; cases hn), (by intro id _ n hn; cases hn), (by intro ty _ ts hts; cases hts)⟩ }
    | 1 => cases he; cases ha; exact t_ok numJ msgOf ser read (lCfg ser) _ 1 (Nat.le_refl 1) (show "t" ∉ ["l", "i"] by decide)
    | n+2 => cases ha

theorem operated_i (numJ : Jws → Nat) (msgOf : Nat → Jws) (ser : Jws → String) (read : Jws → Option Stmt) :
    OperatedWith exCrypto (X numJ) read pub signer (W ser msgOf read) [⟨"t", none⟩] [] iCfg (jwt iCfg) [at'] at' where
  leaf_published := p_iCfg numJ
  last := rfl
  anchor := anchored
  authorities := by
    intro k e a he ha
    match k with
    | 0 => cases he; cases ha; exact t_ok numJ msgOf ser read iCfg _ 0 (by decide) (show "t" ∉ ["i"] by decide)
    | n+1 => cases ha

/-- What is served is one of the five statements. -/
theorem served (msgOf : Nat → Jws) (ser : Jws → String) (read : Jws → Option Stmt) (start : ID) (s : Stmt) (h : ServedIn (W ser msgOf read) start s) :
    ∃ p, (p = lCfg ser ∨ p = iCfg ∨ p = il ∨ p = tCfg ∨ p = ti) ∧ read (jwt p) = some s := by
  rcases h with h | ⟨_, id, h⟩ | ⟨_, ep, sub, iss, h⟩
  · simp only [W] at h
    split at h
    · exact ⟨_, .inl rfl, h⟩
    · split at h
      · exact ⟨_, .inr (.inl rfl), h⟩
      · cases h
  · simp only [W] at h
    split at h
    · exact ⟨_, .inr (.inl rfl), h⟩
    · split at h
      · exact ⟨_, .inr (.inr (.inr (.inl rfl))), h⟩
      · cases h
  · simp only [W] at h
    split at h
    · exact ⟨_, .inr (.inr (.inl rfl)), h⟩
    · split at h
      · exact ⟨_, .inr (.inr (.inr (.inr rfl))), h⟩
      · cases h

theorem finishes (numJ : Jws → Nat) (msgOf : Nat → Jws) (h : ∀ j, msgOf (numJ j) = j) (ser : Jws → String) (P : String → Option Jws) (hP : ∀ j, P (ser j) = some j)
    (id : ID) (hid : id = "l" ∨ id = "i") :
    ∃ cs, (⟨[⟨"t", none⟩], id, []⟩ : Resolver).validChains (W ser msgOf (fun j => parseStmt P (X numJ).decode (ser j))) 4 = .ok (some cs) := by
  have hX := faithful numJ msgOf h ser
  have pub_of : ∀ p, (p = lCfg ser ∨ p = iCfg ∨ p = il ∨ p = tCfg ∨ p = ti) → Published exCrypto (X numJ) signer p (jwt p) ∧ p.policy = (payload ⟨none, none, none⟩).policy ∧
      ∀ x ∈ p.hints.getD [], x ∈ ["x", "i", "t"] := by
    rintro p (rfl | rfl | rfl | rfl | rfl)
    · exact ⟨p_lCfg numJ ser, rfl, show ∀ x ∈ ["x", "i"], x ∈ ["x", "i", "t"] by decide⟩
    · exact ⟨p_iCfg numJ, rfl, show ∀ x ∈ ["t"], x ∈ ["x", "i", "t"] by decide⟩
    · exact ⟨p_il numJ, rfl, by intro x hx; cases hx⟩
    · exact ⟨p_tCfg numJ, rfl, by intro x hx; cases hx⟩
    · exact ⟨p_ti numJ, rfl, by intro x hx; cases hx⟩
  have hints : ∀ start s, ServedIn (W ser msgOf (fun j => parseStmt P (X numJ).decode (ser j))) start s → ∀ x ∈ s.hints, x ∈ ["x", "i", "t"] := by
    intro start s hs
    obtain ⟨p, hp, hr⟩ := served msgOf ser _ start s hs
    obtain ⟨h1, _, h3⟩ := pub_of p hp
    obtain ⟨s', e1, e2⟩ := published_seen hX hP h1
    have : s' = s := Option.some.inj (e1.symm.trans hr)
    rw [← this, e2.hints]
    exact h3
  have hterm := C09_resolution_terminates (W ser msgOf (fun j => parseStmt P (X numJ).decode (ser j))) ⟨[⟨"t", none⟩], id, []⟩ ["x", "i", "t"]
    (fun p id s hs => hints id s (.inr (.inl ⟨p, id, hs⟩))) (fun id s hs => hints id s (.inl hs)) 4 (by decide)
  have hstart : ∃ p s0, (p = lCfg ser ∨ p = iCfg) ∧ (W ser msgOf (fun j => parseStmt P (X numJ).decode (ser j))).start id = some s0 ∧ s0.metadata ≠ none := by
    rcases hid with rfl | rfl
    · obtain ⟨s', e1, e2⟩ := published_seen hX hP (p_lCfg numJ ser)
      exact ⟨_, s', .inl rfl, e1, by intro e; have := e2.hasMeta; rw [e] at this; cases this⟩
    · obtain ⟨s', e1, e2⟩ := published_seen hX hP (p_iCfg numJ)
      exact ⟨_, s', .inr rfl, e1, by intro e; have := e2.hasMeta; rw [e] at this; cases this⟩
  obtain ⟨p, s0, _, hs0, hmeta⟩ := hstart
  have hn := C117_no_panic_partial exCrypto (X numJ) pub msgOf P ser hP signer (W ser msgOf (fun j => parseStmt P (X numJ).decode (ser j))) ⟨[⟨"t", none⟩], id, []⟩ _ _ hX
    (by
      intro s hs
      obtain ⟨p, hp, hr⟩ := served msgOf ser _ _ s hs
      obtain ⟨h1, h2, _⟩ := pub_of p hp
      exact ⟨p, jwt p, h1, fit_of p (.inr h2), hr⟩)
    (by
      intro s hs
      have : s0 = s := Option.some.inj (hs0.symm.trans hs)
      rw [← this]; exact hmeta) 4
  unfold Resolver.validChains at hn ⊢
  cases hr : (⟨[⟨"t", none⟩], id, []⟩ : Resolver).chainsNoMeta (W ser msgOf (fun j => parseStmt P (X numJ).decode (ser j))) 4 with
  | error e =>
    exfalso
    unfold Resolver.chainsNoMeta Resolver.resolveTree at hr
    rw [hs0] at hr
    cases hmm : s0.metadata with
    | none => exact hmeta hmm
    | some m =>
      rcases hid with rfl | rfl <;>
      · simp only [hmm, Option.isNone_some, Bool.false_eq_true, if_false] at hr
        cases hr
  | ok o =>
    cases o with
    | none => exact absurd hr hterm
    | some cs =>
      rw [hr] at hn
      simp only [bind, Except.bind] at hn ⊢
      cases hf : filterValidMetadata cs with
      | ok x => exact ⟨x, rfl⟩
      | error g => rw [hf, (filterValid_panic hf).1] at hn; exact absurd rfl hn

/-- `l` and `i` comply with the policies on their ways: they call themselves "Other". -/
theorem complies (l : ESPayload) (hl : l.policy = (payload ⟨none, none, none⟩).policy ∧ l.policyCrit = none) (as : List Authority) (h : as = [ai, at'] ∨ as = [at'])
    (hrp : askedOf [] l .rp = none) (ep : String) (hfed : askedOf [] l .fed = some (fed ep)) (numJ : Jws → Nat) :
    ∃ v, FollowsConfigured (X numJ).N [] l (onTheWay l as at') v := by
  refine ⟨_, follows_of [] l _ ?_ hrp ep hfed⟩
  intro p hp
  rcases h with rfl | rfl <;> simp only [onTheWay, List.map_cons, List.map_nil, List.cons_append, List.nil_append, List.mem_cons, List.not_mem_nil, or_false] at hp
  · rcases hp with rfl | rfl | rfl | rfl
    · exact hl
    all_goals exact ⟨rfl, rfl⟩
  · rcases hp with rfl | rfl | rfl
    · exact hl
    all_goals exact ⟨rfl, rfl⟩

/-- The mark of `l` was issued with the library. -/
theorem good_issued (ser : Jws → String) : Issued exCrypto signer ser (issuer ser) (spec ser) t0 "tm" "l" [] (3600 * second) (info ser) 1700000000123999999 where
  sign := rfl
  spec := rfl
  issued := issued ser
  extra_keys := by simp [AMap.WF, AMap.keys, spec]
  extra := show ∀ k ∈ ["level"], ∀ t ∈ markTags, foldName t ≠ foldName k by decide
  lifetime := .inr ⟨rfl, rfl⟩
  range := ⟨by unfold InRange; decide, by unfold InRange; decide⟩
  valid := ⟨show (1700000000123456789 : Int) + 2000 ≤ 1700000000123999999 by decide,
    .inr (show (1700000000123999999 : Int) ≤ 1700000000123456789 + 3600 * second - 2000 by decide)⟩

/-- The anchor lets `i` issue it. -/
theorem good_allowed (ser : Jws → String) : LetsIssue tCfg "tm" (issuer ser).id := by
  intro l hl
  cases hl
  show "i" ∈ ["z", "i"]
  decide

/-- The owner has made the delegation. -/
theorem good_owner (ser : Jws → String) (hd : dJwt ser ≠ "") : OwnerOk exCrypto signer ser tCfg K (spec ser) "tm" (issuer ser).id 1700000000123999999 := by
  intro o ho
  cases ho
  refine ⟨owner ser, [pub 3], rfl, rfl, rfl, by simp [K], ⟨rfl, hd, ⟨"tm", 0, "", []⟩, t0, [], 0, rfl, delegated ser, ?_⟩⟩
  refine ⟨by simp [AMap.WF, AMap.keys], by simp [AMap.keys], .inr ⟨rfl, rfl⟩, by unfold InRange; decide, by unfold InRange; decide,
    show (1700000000123456789 : Int) + 2000 ≤ 1700000000123999999 by decide, .inl rfl⟩

/-- `i` resolves. -/
theorem resolves_i (numJ : Jws → Nat) (msgOf : Nat → Jws) (h : ∀ j, msgOf (numJ j) = j) (ser : Jws → String) (P : String → Option Jws) (hP : ∀ j, P (ser j) = some j)
    (num : String → Nat) (p : CallPos) :
    ResolvesTo exCrypto (X numJ) (fun j => parseStmt P (X numJ).decode (ser j)) pub signer (E numJ msgOf ser P num) p [tCfg.iss] [] iCfg (jwt iCfg) [at'] at' :=
  ⟨operated_i .., complies iCfg ⟨rfl, rfl⟩ _ (.inr rfl) rfl "i/fetch" rfl numJ, by decide, rfl, finishes numJ msgOf h ser P hP "i" (.inr rfl)⟩

/-- The mark of `l` is good. -/
theorem good (numJ : Jws → Nat) (msgOf : Nat → Jws) (h : ∀ j, msgOf (numJ j) = j) (ser : Jws → String) (P : String → Option Jws) (hP : ∀ j, P (ser j) = some j)
    (num : String → Nat) (hd : dJwt ser ≠ "") :
    GoodMark exCrypto (X numJ) (fun j => parseStmt P (X numJ).decode (ser j)) ser pub signer (E numJ msgOf ser P num) tCfg K (J ser) [] 0 "tm" (tmJwt ser) := by
  refine ⟨issuer ser, spec ser, t0, "l", [], 3600 * second, info ser, good_issued ser, rfl, good_allowed ser, ?_, good_owner ser hd⟩
  refine .inr ⟨show "i" ≠ "t" by decide, iCfg, jwt iCfg, [at'], at', rfl, ⟨_, rfl, rfl⟩, resolves_i numJ msgOf h ser P hP num _, ?_, ?_⟩
  · intro k hk
    change k ∈ [pub 2, pub 3, pub 2] at hk
    simp only [List.mem_cons, List.not_mem_nil, or_false] at hk
    rcases hk with rfl | rfl | rfl <;> simp [K]
  · intro j hj
    change j ∈ [jwt iCfg, jwt tCfg, jwt ti] at hj
    simp only [List.mem_cons, List.not_mem_nil, or_false] at hj
    rcases hj with rfl | rfl | rfl <;> simp [J]

/-- The anchor `t`. -/
theorem anchors (numJ : Jws → Nat) (msgOf : Nat → Jws) (ser : Jws → String) (P : String → Option Jws) (num : String → Nat) :
    AnchorsPublish exCrypto (X numJ) (fun j => parseStmt P (X numJ).decode (ser j)) signer (E numJ msgOf ser P num) K (J ser) [(tCfg, jwt tCfg)] where
  published t ht := by cases List.mem_singleton.mp ht; exact p_tCfg numJ
  own t ht := by cases List.mem_singleton.mp ht; rfl
  jwts t ht := by cases List.mem_singleton.mp ht; simp [J]
  keys t ht := by
    cases List.mem_singleton.mp ht
    intro k hk
    change k ∈ [pub 3] at hk
    simp [K, List.mem_singleton.mp hk]
  serves t ht := by
    cases List.mem_singleton.mp ht
    intro p pos s hs
    exact hs

/-- C119: `l` is resolved with its mark, for any way to number JWTs and to write them as text. -/
theorem mark_reported (numJ : Jws → Nat) (msgOf : Nat → Jws) (h : ∀ j, msgOf (numJ j) = j) (ser : Jws → String) (P : String → Option Jws) (hP : ∀ j, P (ser j) = some j)
    (num : String → Nat) (hN : Numbered P num msgOf) (hd : dJwt ser ≠ "") :
    ∃ r, localPayload (E numJ msgOf ser P num) (Default.loc.resolve (E numJ msgOf ser P num) 1) [] ⟨"l", ["t"], []⟩ = some (.ok r) ∧
      r.marks.map (fun i => (i.type, i.jwt)) = [("tm", tmJwt ser)] := by
  refine C119_resolved_partial exCrypto exScheme (X numJ) pub msgOf P ser hP num hN signer K (J ser) (faithful numJ msgOf h ser) (E numJ msgOf ser P num) rfl rfl (fun _ => rfl)
    (readsClaims ..) [(tCfg, jwt tCfg)] (anchors numJ msgOf ser P num) [] [] (lCfg ser) (jwt (lCfg ser)) [ai, at'] at'
    ⟨operated_l .., complies (lCfg ser) ⟨rfl, rfl⟩ _ (.inl rfl) rfl "" rfl numJ, (show "l" ≠ "" by decide), rfl, finishes numJ msgOf h ser P hP "l" (.inl rfl)⟩ ?_ ?_ ?_ 0
  · intro k hk
    change k ∈ [pub 2, pub 1, pub 3, pub 2] at hk
    simp only [List.mem_cons, List.not_mem_nil, or_false] at hk
    rcases hk with rfl | rfl | rfl | rfl <;> simp [K]
  · intro j hj
    change j ∈ [jwt (lCfg ser), jwt iCfg, jwt il, jwt tCfg, jwt ti] at hj
    exact hj
  · intro t ht k x hx
    cases List.mem_singleton.mp ht
    match k with
    | k+1 => cases hx
    | 0 =>
      cases hx
      exact good numJ msgOf h ser P hP num hd

/-- The same with the other theorem. -/
example (numJ : Jws → Nat) (msgOf : Nat → Jws) (h : ∀ j, msgOf (numJ j) = j) (ser : Jws → String) (P : String → Option Jws) (hP : ∀ j, P (ser j) = some j)
    (num : String → Nat) (hN : Numbered P num msgOf) (hd : dJwt ser ≠ "") :
    ∃ r, localPayload (E numJ msgOf ser P num) (Default.loc.resolve (E numJ msgOf ser P num) 1) [] ⟨"l", ["t"], []⟩ = some (.ok r) ∧
      ("tm", tmJwt ser) ∈ r.marks.map (fun i => (i.type, i.jwt)) := by
  obtain ⟨r, hr, _⟩ := mark_reported numJ msgOf h ser P hP num hN hd
  refine ⟨r, hr, ?_⟩
  obtain ⟨t, ht, _, hm⟩ := C119_reported_partial exCrypto exScheme (X numJ) pub msgOf P ser hP num hN signer K (J ser) (faithful numJ msgOf h ser) (E numJ msgOf ser P num) rfl rfl
    (fun _ => rfl) (readsClaims ..) [(tCfg, jwt tCfg)] (anchors numJ msgOf ser P num) [] (lCfg ser) (jwt (lCfg ser)) (p_lCfg numJ ser) (by simp [J])
    (show "l" ∉ ["t"] by decide) (show ["x", "i"] ≠ [] by decide) rfl [] 0 r hr
  cases List.mem_singleton.mp ht
  exact hm 0 ⟨"tm", tmJwt ser, []⟩ rfl (good numJ msgOf h ser P hP num hd)

/-- There are such ways. -/
example : ∃ numJ msgOf ser P num r, localPayload (E numJ msgOf ser P num) (Default.loc.resolve (E numJ msgOf ser P num) 1) [] ⟨"l", ["t"], []⟩ = some (.ok r) ∧
    r.marks.map (fun i => (i.type, i.jwt)) = [("tm", tmJwt ser)] := by
  have : Nonempty Jws := ⟨⟨[], []⟩⟩
  obtain ⟨numJ, msgOf, h⟩ := numbering Jws
  obtain ⟨ser, P, num, hP, hne, hN⟩ := serialization numJ msgOf h
  obtain ⟨r, hr⟩ := mark_reported numJ msgOf h ser P hP num hN (hne _)
  exact ⟨numJ, msgOf, ser, P, num, r, hr⟩

end ExTM

end Oidfed
