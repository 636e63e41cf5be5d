import Verif.Spec.MarkJws
import Verif.Props.EndToEnd
import Verif.Props.TrustMark
import Verif.Props.MetaResolver
/-!
# Trust marks with verified JWTs: C108, C109
-/

namespace Oidfed
open Spec

/-! ## C108 -/

theorem markSigned_of {C : Crypto} {keyOf : Nat → JKey} {msgOf : Nat → Jws} {P : String → Option Jws} {num : String → Nat} (hN : Numbered P num msgOf)
    {jwt : String} {m : Mark} {ks : List Nat} (hm : parseMark (readerOf P num) jwt = some m)
    (hs : SignedRaw (jwsOracle C keyOf msgOf) (some ks) m.raw) : MarkSignedWith C P (ks.map keyOf) jwt m := by
  unfold parseMark readerOf at hm
  cases hP : P jwt with
  | none => rw [hP] at hm; cases hm
  | some j =>
    rw [hP] at hm
    cases hsg : j.sigs with
    | nil => simp only [hsg] at hm; cases hm
    | cons s rest =>
      simp only [hsg] at hm
      split at hm
      · cases hm
      · rename_i ht
        cases ho : unmarshalObj markTags tmDec j.payload with
        | none => rw [ho] at hm; cases hm
        | some o =>
          rw [ho] at hm
          cases hm
          obtain ⟨ks', r, e1, _, e2, e3⟩ := hs
          cases e1; cases e2
          unfold jwsOracle at e3
          rw [hN jwt j hP] at e3
          obtain ⟨sg, _, h2⟩ := sigLoop_spec e3
          refine ⟨j, o, sg, hP, ?_, ho, rfl, rfl, rfl, rfl, rfl, rfl, h2⟩
          unfold verifyType
          rw [hsg]
          have : s.typ.getD "" = "trust-mark+jwt" := Classical.byContradiction ht
          have hst : s.typ = some "trust-mark+jwt" := by
            cases hst : s.typ with
            | none => rw [hst] at this; exact absurd this (by decide)
            | some t => rw [hst] at this; exact congrArg some this
          simp [hst]

theorem delegSigned_of {C : Crypto} {keyOf : Nat → JKey} {msgOf : Nat → Jws} {P : String → Option Jws} {num : String → Nat} (hN : Numbered P num msgOf)
    {jwt : String} {d : Delegation} {ks : List Nat} (hm : parseDelegation (readerOf P num) jwt = some d)
    (hs : SignedRaw (jwsOracle C keyOf msgOf) (some ks) d.raw) : DelegationSignedWith C P (ks.map keyOf) jwt d := by
  unfold parseDelegation readerOf at hm
  cases hP : P jwt with
  | none => rw [hP] at hm; cases hm
  | some j =>
    rw [hP] at hm
    cases hsg : j.sigs with
    | nil => simp only [hsg] at hm; cases hm
    | cons s rest =>
      simp only [hsg] at hm
      split at hm
      · cases hm
      · rename_i ht
        cases ho : unmarshalObj delegTags tmDec j.payload with
        | none => rw [ho] at hm; cases hm
        | some o =>
          rw [ho] at hm
          cases hm
          obtain ⟨ks', r, e1, _, e2, e3⟩ := hs
          cases e1; cases e2
          unfold jwsOracle at e3
          rw [hN jwt j hP] at e3
          obtain ⟨sg, _, h2⟩ := sigLoop_spec e3
          refine ⟨j, o, sg, hP, ?_, ho, rfl, rfl, rfl, rfl, rfl, h2⟩
          unfold verifyType
          rw [hsg]
          have : s.typ.getD "" = "trust-mark-delegation+jwt" := Classical.byContradiction ht
          have hst : s.typ = some "trust-mark-delegation+jwt" := by
            cases hst : s.typ with
            | none => rw [hst] at this; exact absurd this (by decide)
            | some t => rw [hst] at this; exact congrArg some this
          simp [hst]

/-- **C108**: a trust mark accepted with `VerifyExternal` is a JWT of trust mark type with a signature by one of the given keys over the claims that the mark shows; it is of the type
the object names and valid. If an owner is given, it contains a JWT of delegation type with a signature by one of the owner's keys, in which the owner lets the mark's issuer issue this
type, and which is valid. -/
theorem C108_external (C : Crypto) (keyOf : Nat → JKey) (msgOf : Nat → Jws) (P : String → Option Jws) (num : String → Nat) (hN : Numbered P num msgOf)
    (nowM nowD : Time) (keys : Keys) (owners : List Owner) (i : Info) (hi : InfoOk (readerOf P num) i)
    (h : (i.verifyExternal (readerOf P num) (jwsOracle C keyOf msgOf) nowM nowD keys owners).1 = true) :
    ∃ m ks, keys = some ks ∧ MarkSignedWith C P (ks.map keyOf) i.jwt m ∧ m.type = i.type ∧ ValidAt nowM m.iat m.exp ∧
      ∀ o, owners.head? = some o → ∃ d oks, o.jwks = some oks ∧ DelegationSignedWith C P (oks.map keyOf) m.delegationJWT d ∧
        d.iss = o.id ∧ d.sub = m.iss ∧ d.type = m.type ∧ ValidAt nowD d.iat d.exp := by
  rw [C37_verify_info _ _ _ _ _ _ _ hi] at h
  obtain ⟨m, h1, h2, h3, h4, h5⟩ := h
  have h4' := h4
  obtain ⟨ks, r, rfl, _, _, _⟩ := h4'
  refine ⟨m, ks, rfl, markSigned_of hN h1 h4, h2, h3, ?_⟩
  intro o ho
  obtain ⟨_, d, d1, d2, d3, d4, d5, d6⟩ := h5 o ho
  have d6' := d6
  obtain ⟨oks, r', e1, _, _, _⟩ := d6'
  rw [e1] at d6
  exact ⟨d, oks, e1, delegSigned_of hN d1 d6, d3, d4, d2, d5⟩

theorem markEntity_of {C : Crypto} {keyOf : Nat → JKey} {P : String → Option Jws} {Holds : ID → JKey → Prop} {e : ID} {ks : List Nat} {jwt : String} {m : Mark}
    (hh : ∀ n ∈ ks, Holds e (keyOf n)) (h : MarkSignedWith C P (ks.map keyOf) jwt m) : MarkSignedByEntity C P Holds e jwt m := by
  obtain ⟨j, o, sg, h1, h2, h3, h4, h5, h6, h7, h8, h9, hs1, k, hk, hs2⟩ := h
  obtain ⟨n, hn, rfl⟩ := List.mem_map.mp hk
  exact ⟨keyOf n, hh n hn, j, o, sg, h1, h2, h3, h4, h5, h6, h7, h8, h9, hs1, _, List.mem_singleton.mpr rfl, hs2⟩

theorem delegEntity_of {C : Crypto} {keyOf : Nat → JKey} {P : String → Option Jws} {Holds : ID → JKey → Prop} {e : ID} {ks : List Nat} {jwt : String}
    {d : Delegation} (hh : ∀ n ∈ ks, Holds e (keyOf n)) (h : DelegationSignedWith C P (ks.map keyOf) jwt d) :
    DelegationSignedByEntity C P Holds e jwt d := by
  obtain ⟨j, o, sg, h1, h2, h3, h4, h5, h6, h7, h8, hs1, k, hk, hs2⟩ := h
  obtain ⟨n, hn, rfl⟩ := List.mem_map.mp hk
  exact ⟨keyOf n, hh n hn, j, o, sg, h1, h2, h3, h4, h5, h6, h7, h8, hs1, _, List.mem_singleton.mpr rfl, hs2⟩

/-- The last statement of a chain is the configuration the anchor's server gave. -/
theorem top_served {W : World} {r : Resolver} {pre : Chain} {s top : Stmt} (h : Produces W r (pre ++ [s, top])) : ∃ pos, W.ec pos top.iss = some top := by
  obtain ⟨s1, steps, _, hv, st, hlast, hc⟩ := produces_path h (by simp)
  have htop : top = st.ec := by
    have := congrArg List.getLast? hc
    rw [← List.cons_append, List.getLast?_append, List.getLast?_append] at this
    simpa using this
  obtain ⟨k, hk⟩ := List.mem_iff_getElem?.mp (List.mem_of_getLast? hlast)
  obtain ⟨e, ok, _⟩ := step_ok hv k st hk
  rw [htop]
  exact ⟨_, ok.served⟩

/-- **C108** in a federation (part): a trust mark accepted with `VerifyFederation` was signed by the entity that it names as its issuer, which the anchor allows; and if the anchor
lists an owner for the type, the mark contains a delegation of this type to the issuer signed by the owner.
This is for the local resolver and if the given anchor, its server, and those it lists as owners present keys they hold, the issuer's server presents a configuration of the issuer that names
an authority, and all on the issuer's chains are truthful. Missing: that the library makes sure of what servers present (C38), and remote resolvers. -/
theorem C108_federation_partial (C : Crypto) (keyOf : Nat → JKey) (msgOf : Nat → Jws) (P : String → Option Jws) (num : String → Nat) (hN : Numbered P num msgOf)
    (D : Jws → Option Stmt) (Holds : ID → JKey → Prop) (E : Env) (hR : E.reader = readerOf P num) (hS : E.sig = jwsOracle C keyOf msgOf)
    (hD : ∀ r, E.parse r = D (msgOf r)) (fuel : Nat) (p : CallPos) (hsig : (E.world p).sig = E.sig) (ta : MarkAnchor) (nowM nowD : Time) (i i' : Info)
    (hi : InfoOk E.reader i) (hta : HeldBy keyOf Holds ta.jwks ta.sub)
    (hserver : ∀ pos s, (E.world p).ec pos ta.sub = some s → HeldBy keyOf Holds s.jwks ta.sub)
    (howners : ∀ t o, AMap.get ta.owners t = some o → HeldBy keyOf Holds o.jwks o.id)
    (hiss : ∀ m, parseMark E.reader i.jwt = some m → ∀ s, (E.world p).start m.iss = some s → s.iss = m.iss ∧ s.sub = m.iss ∧ s.hints ≠ [])
    (htrue : ∀ m, parseMark E.reader i.jwt = some m → ∀ c, Produces (E.world p) ⟨[⟨ta.sub, none⟩], m.iss, []⟩ c →
      ∀ s ∈ c, ReadFrom msgOf D s ∧ Truthful C keyOf D Holds s.iss)
    (h : i.verifyFederation E.reader E.sig nowM nowD (issuerKeys E p (Default.loc.resolve E fuel p) ta) ta = some (.ok (true, i'))) :
    ∃ m, MarkSignedByEntity C P Holds m.iss i.jwt m ∧ m.type = i.type ∧ IssuerAllowed ta m.type m.iss ∧ ValidAt nowM m.iat m.exp ∧
      ∀ o, AMap.get ta.owners m.type = some o → ∃ d, DelegationSignedByEntity C P Holds o.id m.delegationJWT d ∧
        d.iss = o.id ∧ d.sub = m.iss ∧ d.type = m.type ∧ ValidAt nowD d.iat d.exp := by
  obtain ⟨m, keys, h1, h2, h3, h4, h5, h6, h7⟩ := (infoFederation_spec hi h).1.mp rfl
  have hheld : HeldBy keyOf Holds keys m.iss := by
    by_cases he : m.iss = ta.sub
    · unfold issuerKeys at h4
      rw [if_pos he] at h4
      cases h4
      rw [he]; exact hta
    · obtain ⟨c, leaf, r, s', hp, h0, hr, hs', hk, _, _⟩ := issuerKeys_loc h4 he
      obtain ⟨s0, leaf', hs0, h0', hleaf, _⟩ := C12_about_entity_partial _ _ _ hp
      rw [h0] at h0'; cases h0'
      obtain ⟨hsi, hss, hh⟩ := hiss m h1 s0 hs0
      have hli : leaf.iss = m.iss := by rw [hleaf]; exact hsi
      have hls : leaf.sub = m.iss := by rw [hleaf]; exact hss
      have hmem : leaf ∈ c := List.mem_of_getElem? h0
      have htr := htrue m h1 c hp
      have hl : 2 ≤ c.length := by
        rcases C02_every_chain_anchored_partial _ _ _ hp with ⟨hl, _⟩ | ⟨s1, hs1, hc1, hor⟩
        · exact hl
        · exfalso
          have hs0' : (E.world p).start m.iss = some s0 := hs0
          have hs1' : (E.world p).start m.iss = some s1 := hs1
          rw [hs1'] at hs0'; cases hs0'
          rcases hor with ⟨a, ha, hai⟩ | hh'
          · simp only [List.mem_singleton] at ha
            subst ha
            exact he (hsi.symm.trans hai.symm)
          · exact hh hh'
      have hsigned := authentic_from_top C keyOf msgOf D Holds (E.world p) (hsig.trans hS) ⟨[⟨ta.sub, none⟩], m.iss, []⟩ c hp hl
        (fun s hs => (htr s hs).1) (by
          rintro pre s top ta2 keys2 rfl ⟨p1, p2, hpp, hid, _⟩ hak
          have hta2 : ta2 = ⟨ta.sub, none⟩ := by
            have : ta2 ∈ [(⟨ta.sub, none⟩ : Anchor)] := by rw [show [(⟨ta.sub, none⟩ : Anchor)] = p1 ++ ta2 :: p2 from hpp]; simp
            simpa using this
          subst hta2
          have hti : top.iss = ta.sub := hid.symm
          rcases hak with ⟨ks, hks, _⟩ | ⟨_, e⟩
          · cases hks
          · obtain ⟨pos, hpos⟩ := top_served hp
            rw [hti] at hpos ⊢
            rw [e]
            exact hserver pos top hpos) 0 leaf h0
        (fun j x _ hx => (htr x (List.mem_of_getElem? hx)).2)
      obtain ⟨key, raw, k1, k2, k3⟩ := hsigned
      rw [hr] at k2; cases k2
      rw [hD] at hs'
      obtain ⟨s2, e1, e2, e3, _⟩ := (htr leaf hmem).1 r hr
      rw [hs'] at e1; cases e1
      have := ((htr leaf hmem).2 key (msgOf r) s' k1 k3 hs').2
      intro ks hks n hn
      have hx := this ks (by rw [hk]; exact hks) n hn
      rw [← e3, hls] at hx
      exact hx
  rw [hR] at h1
  rw [hS] at h6 h7
  have h6' := h6
  obtain ⟨ks, _, rfl, _, _, _⟩ := h6'
  refine ⟨m, markEntity_of (hheld ks rfl) (markSigned_of hN h1 h6), h2, h3, h5, ?_⟩
  intro o ho
  obtain ⟨_, d, d1, d2, d3, d4, d5, d6⟩ := h7 o ho
  rw [hR] at d1
  have d6' := d6
  obtain ⟨oks, r', e1, _, _, _⟩ := d6'
  rw [e1] at d6
  exact ⟨d, delegEntity_of (howners _ _ ho oks e1) (delegSigned_of hN d1 d6), d3, d4, d2, d5⟩

/-! ## C109 -/

/-- What a signer signs is read back and verifies with the keys the signer publishes, provided the compact form of the JWT parses to it. -/
theorem signsAs_signer {C : Crypto} (hC : Scheme C) {keyOf : Nat → JKey} {msgOf : Nat → Jws} {P : String → Option Jws} {num : String → Nat}
    (hN : Numbered P num msgOf) {S : JSigner} {ser : Jws → String} {ks : List Nat} (hk : S.jwks C = .ok (ks.map keyOf)) {kind : SignerKind} {p : JObj}
    (hser : ∀ j, signAs C S kind (some p) = .ok j → P (ser j) = some j) :
    SignsAs (signerOf C S ser) (readerOf P num) (jwsOracle C keyOf msgOf) ks kind.typ p := by
  intro jwt hj
  unfold signerOf at hj
  cases hs : S.jwt C (some p) kind.typ with
  | error f => rw [hs] at hj; cases hj
  | ok j =>
    rw [hs] at hj
    cases hj
    have hP := hser j hs
    obtain ⟨p', e, hv⟩ := C94_signed_verifies C hC S kind (some p) j (ks.map keyOf) hs hk
    cases e
    refine ⟨num (ser j), ?_, ?_⟩
    · unfold readerOf
      rw [hP]
      unfold JSigner.jwt signWithType at hs
      split at hs
      · cases hs
      · simp only at hs
        split at hs
        · cases hs
        · cases hs; rfl
    · unfold jwsOracle
      rw [hN _ _ hP]
      simp only [verifyWithSet] at hv
      split at hv
      · cases hv
      · split at hv
        · assumption
        · cases hv

theorem published_ne {C : Crypto} {keyOf : Nat → JKey} {S : JSigner} {ks : List Nat} (hk : S.jwks C = .ok (ks.map keyOf)) : ks ≠ [] := by
  rintro rfl
  unfold JSigner.jwks keyToJWKS at hk
  split at hk
  · cases hk
  · split at hk <;> cases hk

/-- **C109** (part): a trust mark issued with this library's signer verifies with the keys that signer publishes, from (two microseconds after) issuance until (two microseconds before)
its expiry, and not (more than two microseconds) outside of that time. Missing: extra claims that use names of trust mark claims (C39). -/
theorem C109_external_partial (C : Crypto) (hC : Scheme C) (keyOf : Nat → JKey) (msgOf : Nat → Jws) (P : String → Option Jws) (num : String → Nat)
    (hN : Numbered P num msgOf) (S : JSigner) (ser : Jws → String) (ks : List Nat) (hk : S.jwks C = .ok (ks.map keyOf))
    (I : MarkIssuer) (hI : I.sign = signerOf C S ser) (now : Time) (type sub : String) (custom : List Int) (info : Info) (s : MarkSpec)
    (hs : I.spec type = some s) (h : I.issue now type sub custom = some info)
    (hser : ∀ j, signAs C S .trustMark (some (I.payload s now sub custom)) = .ok j → P (ser j) = some j)
    (hw : s.extra.WF) (hx : ∀ k ∈ s.extra.keys, ∀ t ∈ markTags, Apart t k)
    (l : Int) (hl : Lifetime s.lifetime custom l) (hr : InRange now) (hre : InRange (now + l)) (nowV nowD : Time) :
    (now + 2000 ≤ nowV → (l = 0 ∨ nowV ≤ now + l - 2000) →
      (info.verifyExternal (readerOf P num) (jwsOracle C keyOf msgOf) nowV nowD (some ks) []).1 = true) ∧
    ((info.verifyExternal (readerOf P num) (jwsOracle C keyOf msgOf) nowV nowD (some ks) []).1 = true →
      now - 2000 < nowV ∧ (l = 0 ∨ nowV < now + l + 2000)) := by
  refine C39_verifies_partial I _ _ ks (published_ne hk) now type sub custom info s hs h ?_ hw hx l hl hr hre nowV nowD
  rw [hI]
  exact signsAs_signer hC hN hk hser

/-- **C109** with delegation (part): a mark issued with this library's signer and with a delegation the owner made out to the issuer with this library's signer verifies
with the keys the two signers publish, while both are valid. -/
theorem C109_delegated_partial (C : Crypto) (hC : Scheme C) (keyOf : Nat → JKey) (msgOf : Nat → Jws) (P : String → Option Jws) (num : String → Nat)
    (hN : Numbered P num msgOf) (S SO : JSigner) (ser : Jws → String) (ks kso : List Nat) (hk : S.jwks C = .ok (ks.map keyOf)) (hko : SO.jwks C = .ok (kso.map keyOf))
    (I : MarkIssuer) (hI : I.sign = signerOf C S ser) (O : MarkOwner) (hO : O.sign = signerOf C SO ser)
    (now nowO : Time) (type sub : String) (custom customO : List Int) (info : Info) (s : MarkSpec) (o : OwnedMark)
    (hs : I.spec type = some s) (ho : O.spec type = some o) (h : I.issue now type sub custom = some info)
    (hd : O.delegate nowO type I.id customO = some s.delegationJWT) (hde : s.delegationJWT ≠ "")
    (hser : ∀ j, signAs C S .trustMark (some (I.payload s now sub custom)) = .ok j → P (ser j) = some j)
    (hsero : ∀ j, signAs C SO .delegation (some (O.payload o nowO I.id customO)) = .ok j → P (ser j) = some j)
    (hw : s.extra.WF) (hx : ∀ k ∈ s.extra.keys, ∀ t ∈ markTags, Apart t k)
    (hwo : o.extra.WF) (hxo : ∀ k ∈ o.extra.keys, ∀ t ∈ delegTags, Apart t k)
    (l lo : Int) (hl : Lifetime s.lifetime custom l) (hlo : Lifetime o.lifetime customO lo)
    (hr : InRange now) (hre : InRange (now + l)) (hro : InRange nowO) (hreo : InRange (nowO + lo)) (nowV nowD : Time)
    (hv : now + 2000 ≤ nowV) (hv' : l = 0 ∨ nowV ≤ now + l - 2000)
    (hd1 : nowO + 2000 ≤ nowD) (hd2 : o.lifetime = 0 ∨ nowD ≤ nowO + lo - 2000) :
    (info.verifyExternal (readerOf P num) (jwsOracle C keyOf msgOf) nowV nowD (some ks) [⟨O.id, some kso⟩]).1 = true := by
  refine C39_delegated_partial I O _ _ ks kso (published_ne hk) (published_ne hko) now nowO type sub custom customO info s o hs ho h hd hde ?_ ?_
    hw hx hwo hxo l lo hl hlo hr hre hro hreo nowV nowD hv hv' hd1 hd2
  · rw [hI]; exact signsAs_signer hC hN hk hser
  · rw [hO]; exact signsAs_signer (kind := .delegation) hC hN hko hsero

/-- What is accepted with the keys found for the issuer and the owner the anchor lists is accepted in the federation. -/
theorem federation_of_external {R : JWTReader} {sig : SigOracle} {nowM nowD : Time} {keysFor : ID → Option (Res Keys)} {ta : MarkAnchor} {i : Info}
    (hi : InfoOk R i) {m : Mark} (hm : parseMark R i.jwt = some m) {keys : Keys} (hk : keysFor m.iss = some (.ok keys)) (hal : IssuerAllowed ta m.type m.iss)
    (h : (i.verifyExternal R sig nowM nowD keys (AMap.get ta.owners m.type).toList).1 = true) :
    ∃ i', i.verifyFederation R sig nowM nowD keysFor ta = some (.ok (true, i')) := by
  have hdone : ∃ b i', i.verifyFederation R sig nowM nowD keysFor ta = some (.ok (b, i')) := by
    unfold Info.verifyFederation
    rcases trustMark_spec hi with ⟨h1, h2, h3⟩ | ⟨m', p, h1, h2, h3, h4, h5⟩
    · rw [h2] at hm; cases hm
    · cases ht : i.trustMark R with
      | mk x y =>
        rw [ht] at h1 h5
        simp only at h1 h5
        subst h1 h5
        simp only
        split
        · exact ⟨_, _, rfl⟩
        · unfold Mark.verifyFederation
          have hpm : m'.iss = m.iss := by rw [h2] at hm; cases hm; rw [h3]
          split
          · rename_i heq
            split at heq
            · cases heq
            · rw [hpm, hk] at heq; cases heq
          · rename_i heq
            split at heq
            · cases heq
            · rw [hpm, hk] at heq; cases heq
          · exact ⟨_, _, rfl⟩
  obtain ⟨b, i', hb⟩ := hdone
  have hspec := (infoFederation_spec hi hb).1
  have : b = true := by
    rw [hspec]
    rw [C37_verify_info _ _ _ _ _ _ _ hi] at h
    obtain ⟨m', e1, e2, e3⟩ := h
    rw [hm] at e1; cases e1
    refine ⟨m, keys, hm, e2, hal, hk, ?_⟩
    have : (AMap.get ta.owners m.type).toList.head? = AMap.get ta.owners m.type := by
      cases AMap.get ta.owners m.type <;> rfl
    rw [this] at e3
    exact e3
  subst this
  exact ⟨i', hb⟩

/-- The keys the local resolver finds for an issuer that resolves: those in the JWT of its configuration. -/
theorem issuerKeys_found {E : Env} {fuel : Nat} {p : CallPos} {ta : MarkAnchor} {iss : ID} {ks : List Nat} (hne : ks ≠ [])
    (h : (iss = ta.sub ∧ ta.jwks = some ks) ∨ (iss ≠ ta.sub ∧ (∃ cm, localChain E p ⟨iss, [ta.sub], []⟩ = some (.ok cm)) ∧
      ∀ s, (E.world p).start iss = some s → ∃ r s', s.raw = some r ∧ E.parse r = some s' ∧ s'.jwks = some ks)) :
    issuerKeys E p (Default.loc.resolve E (fuel + 1) p) ta iss = some (.ok (some ks)) := by
  unfold issuerKeys
  rcases h with ⟨h1, h2⟩ | ⟨h1, ⟨cm, h2⟩, h3⟩
  · rw [if_pos h1, h2]
  · rw [if_neg h1]
    obtain ⟨c, m⟩ := cm
    simp only [Default.resolve, h2, plainPayload]
    obtain ⟨hp, _⟩ := localChain_ok h2
    obtain ⟨s0, leaf, hs0, h0, hleaf, _⟩ := C12_about_entity_partial _ _ _ hp
    obtain ⟨r, s', e1, e2, e3⟩ := h3 s0 hs0
    have hr : leaf.raw = some r := by rw [hleaf]; exact e1
    cases c with
    | nil => cases h0
    | cons x rest =>
      cases h0
      simp only [List.map_cons, hr, issuerStmtKeys, e2, e3]

/-- **C109** in a federation (part): a mark of an allowed issuer that verifies with the issuer's published keys, and against the owner the anchor lists for the type, if any, is
accepted with `VerifyFederation`, if the issuer is the anchor or can be resolved to it. For the local resolver. -/
theorem C109_federation_partial (E : Env) (fuel : Nat) (p : CallPos) (ta : MarkAnchor) (nowM nowD : Time) (i : Info) (hi : InfoOk E.reader i)
    (m : Mark) (hm : parseMark E.reader i.jwt = some m) (ks : List Nat) (hne : ks ≠ [])
    (hiss : (m.iss = ta.sub ∧ ta.jwks = some ks) ∨ (m.iss ≠ ta.sub ∧ (∃ cm, localChain E p ⟨m.iss, [ta.sub], []⟩ = some (.ok cm)) ∧
      ∀ s, (E.world p).start m.iss = some s → ∃ r s', s.raw = some r ∧ E.parse r = some s' ∧ s'.jwks = some ks))
    (hal : IssuerAllowed ta m.type m.iss)
    (h : (i.verifyExternal E.reader E.sig nowM nowD (some ks) (AMap.get ta.owners m.type).toList).1 = true) :
    ∃ i', i.verifyFederation E.reader E.sig nowM nowD (issuerKeys E p (Default.loc.resolve E (fuel + 1) p) ta) ta = some (.ok (true, i')) :=
  federation_of_external hi hm (issuerKeys_found hne hiss) hal h

/-- **C109** altogether (part): a mark issued with this library's signer by an issuer whose configuration, signed with this library too, has that signer's keys is accepted by everybody who
trusts an anchor to which the issuer resolves, while it is valid. For the local resolver, and a type for which the anchor lists no owner. -/
theorem C109_issued_accepted_partial (C : Crypto) (hC : Scheme C) (keyOf : Nat → JKey) (msgOf : Nat → Jws) (P : String → Option Jws) (num : String → Nat)
    (hN : Numbered P num msgOf) (S : JSigner) (ser : Jws → String) (ks : List Nat) (hk : S.jwks C = .ok (ks.map keyOf))
    (I : MarkIssuer) (hI : I.sign = signerOf C S ser) (now : Time) (type sub : String) (custom : List Int) (info : Info) (s : MarkSpec)
    (hs : I.spec type = some s) (h : I.issue now type sub custom = some info)
    (hser : ∀ j, signAs C S .trustMark (some (I.payload s now sub custom)) = .ok j → P (ser j) = some j)
    (hw : s.extra.WF) (hx : ∀ k ∈ s.extra.keys, ∀ t ∈ markTags, Apart t k)
    (l : Int) (hl : Lifetime s.lifetime custom l) (hr : InRange now) (hre : InRange (now + l)) (nowV nowD : Time)
    (hv : now + 2000 ≤ nowV) (hv' : l = 0 ∨ nowV ≤ now + l - 2000)
    (E : Env) (hR : E.reader = readerOf P num) (hS : E.sig = jwsOracle C keyOf msgOf) (fuel : Nat) (p : CallPos) (ta : MarkAnchor)
    (hown : AMap.get ta.owners type = none) (hal : IssuerAllowed ta type I.id)
    (hiss : (I.id = ta.sub ∧ ta.jwks = some ks) ∨ (I.id ≠ ta.sub ∧ (∃ cm, localChain E p ⟨I.id, [ta.sub], []⟩ = some (.ok cm)) ∧
      ∀ s, (E.world p).start I.id = some s → ∃ r s', s.raw = some r ∧ E.parse r = some s' ∧ s'.jwks = some ks)) :
    ∃ info', info.verifyFederation E.reader E.sig nowV nowD (issuerKeys E p (Default.loc.resolve E (fuel + 1) p) ta) ta = some (.ok (true, info')) := by
  have hsign : SignsAs I.sign (readerOf P num) (jwsOracle C keyOf msgOf) ks "trust-mark+jwt" (I.payload s now sub custom) := by
    rw [hI]; exact signsAs_signer (kind := .trustMark) hC hN hk hser
  obtain ⟨_, hi, _⟩ := issued_mark hs h hsign hw hx
  obtain ⟨_, m, hm, e1, _, e2, _⟩ := C39_claims_partial I _ _ ks now type sub custom info s hs h hsign hw hx l hl hr hre
  rw [hR, hS]
  have := C109_federation_partial E fuel p ta nowV nowD info (by rw [hR]; exact hi) m (by rw [hR]; exact hm) ks (published_ne hk) (by rw [e1]; exact hiss)
    (by rw [e1, e2]; exact hal) (by
      rw [e2, hown, hR, hS]
      exact (C109_external_partial C hC keyOf msgOf P num hN S ser ks hk I hI now type sub custom info s hs h hser hw hx l hl hr hre nowV nowD).1 hv hv')
  rw [hR, hS] at this
  exact this

/-- The keys any default resolver finds for an issuer. -/
theorem issuerKeys_answered {E : Env} {D : Default} {fuel : Nat} {p : CallPos} {ta : MarkAnchor} {iss : ID} {ks : List Nat} (hne : ks ≠ [])
    (h : AnsweredWith E D fuel p ta iss ks) : issuerKeys E p (D.resolve E fuel p) ta iss = some (.ok (some ks)) := by
  unfold issuerKeys
  rcases h with ⟨h1, h2⟩ | ⟨h1, r, s, h2, hs, h3⟩
  · rw [if_pos h1, h2]
  · rw [if_neg h1]
    simp only [h2]
    rcases h3 with ⟨e1, e2⟩ | ⟨n, rest, e1, e2⟩
    · simp only [e1, e2, issuerStmtKeys, hs]
    · simp only [e1, e2, issuerStmtKeys, hs]

/-- **C109** in a federation (part), for every default resolver: a mark of an allowed issuer that verifies with the issuer's published keys, and against the owner the anchor lists for the
type, if any, is accepted, if the resolver, asked about the issuer, answers with a chain that begins with the issuer's configuration. -/
theorem C109_any_resolver_partial (E : Env) (D : Default) (fuel : Nat) (p : CallPos) (ta : MarkAnchor) (nowM nowD : Time) (i : Info) (hi : InfoOk E.reader i)
    (m : Mark) (hm : parseMark E.reader i.jwt = some m) (ks : List Nat) (hne : ks ≠ []) (hiss : AnsweredWith E D fuel p ta m.iss ks)
    (hal : IssuerAllowed ta m.type m.iss)
    (h : (i.verifyExternal E.reader E.sig nowM nowD (some ks) (AMap.get ta.owners m.type).toList).1 = true) :
    ∃ i', i.verifyFederation E.reader E.sig nowM nowD (issuerKeys E p (D.resolve E fuel p) ta) ta = some (.ok (true, i')) :=
  federation_of_external hi hm (issuerKeys_answered hne hiss) hal h

/-- **C109** altogether with an owner (part): the anchor lists an owner for the type, who has delegated to the issuer with this library; the mark, issued with this library's signer, is
accepted by everybody who trusts the anchor, whichever default resolver they have, if this answers with the issuer's configuration, while mark and delegation are valid. -/
theorem C109_issued_delegated_partial (C : Crypto) (hC : Scheme C) (keyOf : Nat → JKey) (msgOf : Nat → Jws) (P : String → Option Jws) (num : String → Nat)
    (hN : Numbered P num msgOf) (S SO : JSigner) (ser : Jws → String) (ks kso : List Nat) (hk : S.jwks C = .ok (ks.map keyOf)) (hko : SO.jwks C = .ok (kso.map keyOf))
    (I : MarkIssuer) (hI : I.sign = signerOf C S ser) (O : MarkOwner) (hO : O.sign = signerOf C SO ser)
    (now nowO : Time) (type sub : String) (custom customO : List Int) (info : Info) (s : MarkSpec) (o : OwnedMark)
    (hs : I.spec type = some s) (ho : O.spec type = some o) (h : I.issue now type sub custom = some info)
    (hd : O.delegate nowO type I.id customO = some s.delegationJWT) (hde : s.delegationJWT ≠ "")
    (hser : ∀ j, signAs C S .trustMark (some (I.payload s now sub custom)) = .ok j → P (ser j) = some j)
    (hsero : ∀ j, signAs C SO .delegation (some (O.payload o nowO I.id customO)) = .ok j → P (ser j) = some j)
    (hw : s.extra.WF) (hx : ∀ k ∈ s.extra.keys, ∀ t ∈ markTags, Apart t k)
    (hwo : o.extra.WF) (hxo : ∀ k ∈ o.extra.keys, ∀ t ∈ delegTags, Apart t k)
    (l lo : Int) (hl : Lifetime s.lifetime custom l) (hlo : Lifetime o.lifetime customO lo)
    (hr : InRange now) (hre : InRange (now + l)) (hro : InRange nowO) (hreo : InRange (nowO + lo)) (nowV nowD : Time)
    (hv : now + 2000 ≤ nowV) (hv' : l = 0 ∨ nowV ≤ now + l - 2000)
    (hd1 : nowO + 2000 ≤ nowD) (hd2 : o.lifetime = 0 ∨ nowD ≤ nowO + lo - 2000)
    (E : Env) (hR : E.reader = readerOf P num) (hS : E.sig = jwsOracle C keyOf msgOf) (D : Default) (fuel : Nat) (p : CallPos) (ta : MarkAnchor)
    (hown : AMap.get ta.owners type = some ⟨O.id, some kso⟩) (hal : IssuerAllowed ta type I.id) (hiss : AnsweredWith E D fuel p ta I.id ks) :
    ∃ info', info.verifyFederation E.reader E.sig nowV nowD (issuerKeys E p (D.resolve E fuel p) ta) ta = some (.ok (true, info')) := by
  have hsign : SignsAs I.sign (readerOf P num) (jwsOracle C keyOf msgOf) ks "trust-mark+jwt" (I.payload s now sub custom) := by
    rw [hI]; exact signsAs_signer (kind := .trustMark) hC hN hk hser
  obtain ⟨_, hi, _⟩ := issued_mark hs h hsign hw hx
  obtain ⟨_, m, hm, e1, _, e2, _⟩ := C39_claims_partial I _ _ ks now type sub custom info s hs h hsign hw hx l hl hr hre
  refine C109_any_resolver_partial E D fuel p ta nowV nowD info (by rw [hR]; exact hi) m (by rw [hR]; exact hm) ks (published_ne hk) (by rw [e1]; exact hiss)
    (by rw [e1, e2]; exact hal) ?_
  rw [e2, hown, hR, hS]
  exact C109_delegated_partial C hC keyOf msgOf P num hN S SO ser ks kso hk hko I hI O hO now nowO type sub custom customO info s o hs ho h hd hde hser hsero hw hx hwo hxo
    l lo hl hlo hr hre hro hreo nowV nowD hv hv' hd1 hd2

/-! ## A federation with trust marks

The federation of `ExE` (l below i below t) with a mark issued by `l`, of a type that `t` owns. -/

namespace ExM

/-- Where the statements of a chain come from. -/
theorem chain_answers {W : World} {r : Resolver} {c : Chain} (h : Produces W r c) :
    (∃ s0 rest, c = restrictTypes r.types s0 :: rest ∧ W.start r.start = some s0) ∧
    ∀ st ∈ c.tail, (∃ pos, W.ec pos st.iss = some st) ∨ ∃ pos ep, W.fetch pos ep st.sub st.iss = some st := by
  rcases C02_every_chain_anchored_partial W r c h with ⟨hl, _⟩ | ⟨s0, h0, rfl, _⟩
  · obtain ⟨s0, steps, h0, hv, st, hlast, rfl⟩ := produces_path h hl
    refine ⟨⟨s0, _, rfl, h0⟩, ?_⟩
    intro x hx
    simp only [List.tail_cons, List.mem_append, List.mem_map, List.mem_singleton] at hx
    rcases hx with ⟨a, ha, rfl⟩ | rfl
    · obtain ⟨k, hk⟩ := List.mem_iff_getElem?.mp ha
      obtain ⟨e, ok, _⟩ := step_ok hv k a hk
      right
      rw [ok.sub_sub, ok.sub_iss]
      exact ⟨_, _, ok.fetched⟩
    · obtain ⟨k, hk⟩ := List.mem_iff_getElem?.mp (List.mem_of_getLast? hlast)
      obtain ⟨e, ok, _⟩ := step_ok hv k st hk
      exact .inl ⟨_, ok.served⟩
  · exact ⟨⟨s0, [], rfl, h0⟩, by simp⟩

def markJws : Jws := ⟨[("iss", .str "l"), ("sub", .str "x"), ("trust_mark_type", .str "tm"), ("delegation", .str "d")],
  [⟨some "trust-mark+jwt", some "k", some "ES512", 1⟩]⟩

def delegJws : Jws := ⟨[("iss", .str "t"), ("sub", .str "l"), ("trust_mark_type", .str "tm")], [⟨some "trust-mark-delegation+jwt", some "kkk", some "ES512", 3⟩]⟩

/-- `"m"` is the mark, `"d"` the delegation. -/
def P (s : String) : Option Jws := if s = "m" then some markJws else if s = "d" then some delegJws else none

def num (s : String) : Nat := if s = "m" then 100 else 101

def msgOf (n : Nat) : Jws := if n = 100 then markJws else if n = 101 then delegJws else ExE.msg n

theorem numbered : Numbered P num msgOf := by
  intro s j h
  unfold P at h
  split at h
  · rename_i e; subst e; cases h; rfl
  · split at h
    · rename_i e; subst e; cases h; rfl
    · cases h

def info : Info := ⟨"tm", "m", [], none⟩

/-- C108, external: the mark verifies with the key of `l` and the delegation with that of `t`. -/
example : (info.verifyExternal (readerOf P num) (jwsOracle exCrypto exKeyOf msgOf) 50 50 (some [1]) [⟨"t", some [3]⟩]).1 = true ∧
    InfoOk (readerOf P num) info := ⟨rfl, by intro m h; cases h⟩

def E : Env where
  world := fun _ => { ExE.W with sig := jwsOracle exCrypto exKeyOf msgOf }
  depth := 5
  swaps := fun _ => []
  anchorEC := fun _ _ _ => none
  issuerEC := fun _ _ => none
  http := fun _ _ _ _ => .failed
  now := fun _ _ => (50, 50)
  claims := fun _ => ⟨[], none, []⟩
  reader := readerOf P num
  parse := fun r => ExE.D (msgOf r)
  sig := jwsOracle exCrypto exKeyOf msgOf

def ta : MarkAnchor := ⟨"t", some [3], some [("tm", ["l"])], [("tm", ⟨"t", some [3]⟩)]⟩

theorem readFrom (c : Chain) (h : Produces (E.world []) ⟨[⟨"t", none⟩], "l", []⟩ c) : ∀ s ∈ c, ReadFrom msgOf ExE.D s := by
  obtain ⟨⟨s0, rest, rfl, h0⟩, ht⟩ := chain_answers h
  intro s hs
  rcases List.mem_cons.mp hs with rfl | hs
  · cases h0
    intro r hr
    cases hr
    exact ⟨_, rfl, rfl, rfl, rfl⟩
  · rcases ht s hs with ⟨pos, h1⟩ | ⟨pos, ep, h1⟩
    · simp only [E, ExE.W] at h1
      split at h1
      · cases h1; intro r hr; cases hr; exact ⟨_, rfl, rfl, rfl, rfl⟩
      · split at h1
        · cases h1; intro r hr; cases hr; exact ⟨_, rfl, rfl, rfl, rfl⟩
        · cases h1
    · simp only [E, ExE.W] at h1
      split at h1
      · cases h1; intro r hr; cases hr; exact ⟨_, rfl, rfl, rfl, rfl⟩
      · split at h1
        · cases h1; intro r hr; cases hr; exact ⟨_, rfl, rfl, rfl, rfl⟩
        · cases h1

/-- C108 in the federation: the mark is accepted, so `l` signed it and `t` the delegation. -/
example : ∃ m, MarkSignedByEntity exCrypto P ExE.Holds m.iss "m" m ∧ m.iss = "l" ∧ ∃ d, DelegationSignedByEntity exCrypto P ExE.Holds "t" m.delegationJWT d := by
  have hread : ∀ m, parseMark E.reader "m" = some m → m.iss = "l" ∧ m.type = "tm" := by intro m hm; cases hm; exact ⟨rfl, rfl⟩
  obtain ⟨m, h1, h2, _, _, h3⟩ := C108_federation_partial exCrypto exKeyOf msgOf P num numbered ExE.D ExE.Holds E rfl rfl (fun _ => rfl) 1 [] rfl ta 50 50 info _
    (by intro m h; cases h)
    (by intro ks hks n hn; cases hks; cases List.mem_singleton.mp hn; exact .inr (.inr ⟨rfl, rfl⟩))
    (by
      intro pos s hs ks hks n hn
      cases hs; cases hks; cases List.mem_singleton.mp hn; exact .inr (.inr ⟨rfl, rfl⟩))
    (by
      intro t o ho ks hks n hn
      unfold ta at ho
      simp only [AMap.get] at ho
      split at ho
      · cases ho; cases hks; cases List.mem_singleton.mp hn; exact .inr (.inr ⟨rfl, rfl⟩)
      · cases ho)
    (by intro m hm s hs; rw [(hread m hm).1] at hs ⊢; cases hs; exact ⟨rfl, rfl, by decide⟩)
    (by
      intro m hm c hc
      rw [(hread m hm).1] at hc
      exact fun s hs => ⟨readFrom c hc s hs, ExE.truthful _⟩)
    rfl
  have h1' := h1
  obtain ⟨_, _, j, o, sg, e1, _, e3, e4, _, e5, _⟩ := h1'
  cases e1
  cases e3
  refine ⟨m, h1, e4, ?_⟩
  obtain ⟨d, hd, _⟩ := h3 ⟨"t", some [3]⟩ (by rw [h2]; rfl)
  exact ⟨d, hd⟩

/-! Issuing: `l` issues with its signer, `t` delegates with its signer. -/

def ser (j : Jws) : String := match j.sigs with | [] => "" | s :: _ => if s.typ = some "trust-mark+jwt" then "m" else "d"

def spec : MarkSpec := ⟨"tm", 3600 * second, "", "", [("level", .str "high")], false, "d"⟩

def issuer : MarkIssuer := newMarkIssuer "l" (signerOf exCrypto ⟨some 1, "ES512"⟩ ser) [spec]

def owned : OwnedMark := ⟨"tm", 0, "", []⟩

def owner : MarkOwner := ⟨"t", signerOf exCrypto ⟨some 3, "ES512"⟩ ser, [owned]⟩

def markJws2 : Jws := ⟨issuer.payload spec Ex.t0 "https://leaf" [], [⟨some "trust-mark+jwt", some "k", some "ES512", 1⟩]⟩

def delegJws2 : Jws := ⟨owner.payload owned Ex.t0 "l" [], [⟨some "trust-mark-delegation+jwt", some "kkk", some "ES512", 3⟩]⟩

def P2 (s : String) : Option Jws := if s = "m" then some markJws2 else if s = "d" then some delegJws2 else none

def msgOf2 (n : Nat) : Jws := if n = 100 then markJws2 else if n = 101 then delegJws2 else ExE.msg n

theorem numbered2 : Numbered P2 num msgOf2 := by
  intro s j h
  unfold P2 at h
  split at h
  · rename_i e; subst e; cases h; rfl
  · split at h
    · rename_i e; subst e; cases h; rfl
    · cases h

/-- C109, with delegation. -/
example : ∃ info, issuer.issue Ex.t0 "tm" "https://leaf" [] = some info ∧
    (info.verifyExternal (readerOf P2 num) (jwsOracle exCrypto exKeyOf msgOf2) (Ex.t0 + 5000) (Ex.t0 + 6000) (some [1]) [⟨"t", some [3]⟩]).1 = true := by
  refine ⟨_, rfl, ?_⟩
  refine C109_delegated_partial exCrypto exScheme exKeyOf msgOf2 P2 num numbered2 ⟨some 1, "ES512"⟩ ⟨some 3, "ES512"⟩ ser [1] [3] rfl rfl issuer rfl owner rfl
    Ex.t0 Ex.t0 "tm" "https://leaf" [] [] _ spec owned rfl rfl rfl rfl (by decide) ?_ ?_ ?_ ?_ ?_ ?_ (3600 * second) 0 (.inr ⟨rfl, rfl⟩) (.inr ⟨rfl, rfl⟩)
    (by unfold InRange; decide) (by unfold InRange; decide) (by unfold InRange; decide) (by unfold InRange; decide)
    (Ex.t0 + 5000) (Ex.t0 + 6000) (by decide) (.inr (by decide)) (by decide) (.inl rfl)
  · intro j hj; cases hj; rfl
  · intro j hj; cases hj; rfl
  · simp [AMap.WF, AMap.keys, spec]
  · simp only [spec, AMap.keys, Apart]; decide
  · simp [AMap.WF, AMap.keys, owned]
  · simp [AMap.keys, owned]

def E2 : Env := { E with
  world := fun _ => { ExE.W with sig := jwsOracle exCrypto exKeyOf msgOf2 }
  reader := readerOf P2 num
  parse := fun r => ExE.D (msgOf2 r)
  sig := jwsOracle exCrypto exKeyOf msgOf2 }

/-- C109 altogether. -/
example : ∃ info info', issuer.issue Ex.t0 "tm" "https://leaf" [] = some info ∧
    info.verifyFederation E2.reader E2.sig (Ex.t0 + 5000) 0 (issuerKeys E2 [] (Default.loc.resolve E2 1 []) ⟨"t", some [3], some [("tm", ["l"])], []⟩)
      ⟨"t", some [3], some [("tm", ["l"])], []⟩ = some (.ok (true, info')) := by
  obtain ⟨info, hi⟩ : ∃ info, issuer.issue Ex.t0 "tm" "https://leaf" [] = some info := ⟨_, rfl⟩
  obtain ⟨info', h⟩ := C109_issued_accepted_partial exCrypto exScheme exKeyOf msgOf2 P2 num numbered2 ⟨some 1, "ES512"⟩ ser [1] rfl issuer rfl
    Ex.t0 "tm" "https://leaf" [] info spec rfl hi (by intro j hj; cases hj; rfl) (by simp [AMap.WF, AMap.keys, spec])
    (by simp only [spec, AMap.keys, Apart]; decide) (3600 * second) (.inr ⟨rfl, rfl⟩) (by unfold InRange; decide) (by unfold InRange; decide)
    (Ex.t0 + 5000) 0 (by decide) (.inr (by decide)) E2 rfl rfl 0 [] ⟨"t", some [3], some [("tm", ["l"])], []⟩ rfl
    (by intro m l hm hl; cases hm; cases hl; simp [issuer, newMarkIssuer])
    (.inr ⟨by decide, ⟨_, rfl⟩, by intro s hs; cases hs; exact ⟨1, _, rfl, rfl, rfl⟩⟩)
  exact ⟨info, info', hi, h⟩

/-- The resolve endpoint answers with a chain that begins with the JWT of `l`. -/
def E3 : Env := { E2 with http := fun _ _ _ _ => .body (some ⟨none, [], [some 1]⟩) }

/-- C109 altogether with the owner, for a remote resolver whose answer begins with the configuration of `l`. -/
example : ∃ info info', issuer.issue Ex.t0 "tm" "https://leaf" [] = some info ∧
    info.verifyFederation E3.reader E3.sig (Ex.t0 + 5000) (Ex.t0 + 6000) (issuerKeys E3 [] ((Default.simple "ep").resolve E3 1 []) ta) ta = some (.ok (true, info')) := by
  obtain ⟨info, hi⟩ : ∃ info, issuer.issue Ex.t0 "tm" "https://leaf" [] = some info := ⟨_, rfl⟩
  obtain ⟨info', h⟩ := C109_issued_delegated_partial exCrypto exScheme exKeyOf msgOf2 P2 num numbered2 ⟨some 1, "ES512"⟩ ⟨some 3, "ES512"⟩ ser [1] [3] rfl rfl issuer rfl owner rfl
    Ex.t0 Ex.t0 "tm" "https://leaf" [] [] info spec owned rfl rfl hi rfl (by decide) (by intro j hj; cases hj; rfl) (by intro j hj; cases hj; rfl)
    (by simp [AMap.WF, AMap.keys, spec]) (by simp only [spec, AMap.keys, Apart]; decide) (by simp [AMap.WF, AMap.keys, owned]) (by simp [AMap.keys, owned])
    (3600 * second) 0 (.inr ⟨rfl, rfl⟩) (.inr ⟨rfl, rfl⟩)
    (by unfold InRange; decide) (by unfold InRange; decide) (by unfold InRange; decide) (by unfold InRange; decide)
    (Ex.t0 + 5000) (Ex.t0 + 6000) (by decide) (.inr (by decide)) (by decide) (.inl rfl) E3 rfl rfl (.simple "ep") 1 [] ta rfl
    (by intro m l hm hl; cases hm; cases hl; simp [issuer, newMarkIssuer])
    (.inr ⟨by decide, _, _, rfl, rfl, .inr ⟨1, [], rfl, rfl⟩⟩)
  exact ⟨info, info', hi, h⟩

end ExM

end Oidfed
