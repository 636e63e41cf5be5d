import Verif.Spec.Jws
import Verif.Lemmas.JSONObject
/-!
# Properties of signed JWTs: C93, C94, C95, C96, C97
-/

namespace Oidfed
open Spec

/-! ## Lemmas -/

theorem fetch_spec {C : Crypto} {ks : List JKey} {s : JSig} {pairs : List (String × Nat)} (h : fetchKeys C ks s = some pairs)
    {p : String × Nat} (hp : p ∈ pairs) :
    ∃ k ∈ ks, s.kid.isSome ∧ k.kid = s.kid ∧ (k.use = none ∨ k.use = some "" ∨ k.use = some "sig") ∧ p.2 = k.key ∧
      (k.alg = some p.1 ∨ (k.alg = none ∧ p.1 ∈ C.algs k.key)) := by
  unfold fetchKeys at h
  split at h
  · cases h
  · rename_i kid hkid
    split at h
    · cases h
    · rename_i k hk
      have hk1 := List.mem_of_find?_eq_some hk
      have hk2 : k.kid = some kid := by simpa using List.find?_some hk
      split at h
      · cases h; cases hp
      · rename_i hu
        have hu' : k.use = none ∨ k.use = some "" ∨ k.use = some "sig" :=
          Classical.byContradiction fun h' => hu (by rw [decide_eq_false h']; rfl)
        refine ⟨k, hk1, by rw [hkid]; rfl, by rw [hkid, hk2], hu', ?_⟩
        split at h
        · rename_i a ha
          split at h
          · cases h
            simp only [List.mem_singleton] at hp
            subst hp
            exact ⟨rfl, .inl ha⟩
          · cases h
        · rename_i ha
          have hall : ∀ q, q ∈ (C.algs k.key).map (fun b => (b, k.key)) → q.2 = k.key ∧ (k.alg = some q.1 ∨ (k.alg = none ∧ q.1 ∈ C.algs k.key)) := by
            intro q hq
            obtain ⟨b, hb, rfl⟩ := List.mem_map.mp hq
            exact ⟨rfl, .inr ⟨ha, hb⟩⟩
          split at h
          · split at h
            · rename_i hc
              cases h
              simp only [List.mem_singleton] at hp
              subst hp
              exact ⟨rfl, .inr ⟨ha, by simpa using hc⟩⟩
            · cases h; exact hall p hp
          · cases h; exact hall p hp

theorem sigLoop_spec {C : Crypto} {ks : List JKey} {payload : JObj} : ∀ {sigs : List JSig}, sigLoop C ks payload sigs = true →
    ∃ s ∈ sigs, SignedBy C ks ⟨payload, sigs⟩ s := by
  intro sigs
  induction sigs with
  | nil => intro h; cases h
  | cons s rest ih =>
    intro h
    unfold sigLoop at h
    split at h
    · cases h
    · rename_i pairs hp
      split at h
      · rename_i ha
        rw [List.any_eq_true] at ha
        obtain ⟨p, hp1, hp2⟩ := ha
        obtain ⟨k, h1, h2, h3, h4, h5, h6⟩ := fetch_spec hp hp1
        exact ⟨s, by simp, by simp, k, h1, h2, h3, h4, p.1, h6, by rw [← h5]; exact hp2⟩
      · obtain ⟨s', h1, h2, h3⟩ := ih h
        exact ⟨s', by simp [h1], List.mem_cons_of_mem _ h2, h3⟩

/-! ## C94 -/

/-- **C94** (soundness): a JWT that verifies has its payload signed by the holder of one of the given keys. Nothing verifies without
keys. -/
theorem C94_verified_is_signed (C : Crypto) (keys : Option (List JKey)) (m : Option Jws) (p : JObj) (h : verifyWithSet C keys m = some p) :
    ∃ ks j s, keys = some ks ∧ m = some j ∧ p = j.payload ∧ SignedBy C ks j s := by
  unfold verifyWithSet at h
  split at h
  · rename_i j ks
    split at h
    · cases h
    · split at h
      · rename_i hv
        cases h
        obtain ⟨s, _, hs⟩ := sigLoop_spec hv
        exact ⟨ks, j, s, rfl, rfl, rfl, hs⟩
      · cases h
  · cases h

/-- Verification of a signature with the only fitting key. -/
theorem verify_single {C : Crypto} {ks : List JKey} {s : JSig} {payload : JObj} {k : JKey} {alg kid : String}
    (hf : ks.find? (fun k => k.kid == some kid) = some k) (hkid : s.kid = some kid) (hu : k.use = some "sig") (ha : k.alg = some alg)
    (hkn : C.known alg = true) (hv : C.verify alg k.key s payload = true) :
    verifyWithSet C (some ks) (some ⟨payload, [s]⟩) = some payload := by
  have hne : ks.isEmpty = false := by cases ks with
    | nil => cases hf
    | cons _ _ => rfl
  have hfk : fetchKeys C ks s = some [(alg, k.key)] := by
    unfold fetchKeys
    rw [hkid]
    simp only [hf, hu, ha, hkn]
    simp
  simp only [verifyWithSet, hne, Bool.false_eq_true, if_false, sigLoop, hfk, List.any_cons, hv, Bool.true_or, if_true]

/-- **C94** (completeness): what a signer signs verifies with the keys the signer publishes, with the payload that was signed. -/
theorem C94_signed_verifies (C : Crypto) (hC : Scheme C) (S : JSigner) (kind : SignerKind) (payload : Option JObj) (j : Jws) (ks : List JKey)
    (hj : signAs C S kind payload = .ok j) (hk : S.jwks C = .ok ks) :
    ∃ p, payload = some p ∧ verifyWithSet C (some ks) (some j) = some p := by
  unfold signAs JSigner.jwt at hj
  unfold JSigner.jwks at hk
  cases hkey : S.key with
  | none => rw [hkey] at hj; cases hj
  | some k =>
    rw [hkey] at hj hk
    cases payload with
    | none => cases hj
    | some p =>
      simp only [signWithType] at hj
      split at hj
      · cases hj
      · rename_i n hn
        cases hj
        simp only [keyToJWKS] at hk
        split at hk
        · cases hk
        · cases hk
          exact ⟨p, rfl, verify_single (k := ⟨some (C.thumb (C.pub k)), some "sig", some S.alg, C.pub k⟩) (by simp) rfl rfl rfl
            (hC.known _ _ _ _ _ _ hn) (hC.correct _ _ _ _ _ _ hn)⟩

/-- A toy scheme: the signature is the private key, which is its own public key; it ignores the payload. -/
def exCrypto : Crypto where
  verify := fun a k s _ => a == "ES512" && s.alg == some a && s.sig == k
  algs := fun _ => ["ES512"]
  known := fun a => a == "ES512"
  pub := id
  thumb := fun n => String.ofList (List.replicate n 'k')
  sign := fun a k _ _ _ => if a = "ES512" then some k else none

theorem exScheme : Scheme exCrypto where
  correct := by
    intro alg priv typ kid payload n h
    simp only [exCrypto] at h
    split at h
    · rename_i ha; cases h; subst ha; simp [exCrypto]
    · cases h
  known := by
    intro alg priv typ kid payload n h
    simp only [exCrypto] at h
    split at h
    · rename_i ha; subst ha; rfl
    · cases h

/-- A statement signed and verified; the hypotheses are met. -/
example : ∃ j ks, signAs exCrypto ⟨some 3, "ES512"⟩ .entityStatement (some [("iss", .str "a")]) = .ok j ∧
    JSigner.jwks exCrypto ⟨some 3, "ES512"⟩ = .ok ks ∧ verifyWithSet exCrypto (some ks) (some j) = some [("iss", .str "a")] :=
  ⟨_, _, rfl, rfl, rfl⟩

/-! ## C95 -/

/-- **C95** (part): whatever other keys are published along with a signer's key, in whatever order, what it signs verifies, provided no other key in the set has
the same key id. -/
theorem C95_any_key_partial (C : Crypto) (hC : Scheme C) (S : JSigner) (kind : SignerKind) (p : JObj) (j : Jws) (k : JKey) (ks : List JKey)
    (hj : signAs C S kind (some p) = .ok j) (hk : S.jwks C = .ok [k]) (hm : k ∈ ks) (hu : ∀ k' ∈ ks, k'.kid = k.kid → k' = k) :
    verifyWithSet C (some ks) (some j) = some p := by
  unfold signAs JSigner.jwt at hj
  unfold JSigner.jwks at hk
  cases hkey : S.key with
  | none => rw [hkey] at hj; cases hj
  | some key =>
    rw [hkey] at hj hk
    simp only [signWithType] at hj
    split at hj
    · cases hj
    · rename_i n hn
      cases hj
      simp only [keyToJWKS] at hk
      split at hk
      · cases hk
      · simp only [Except.ok.injEq, List.cons.injEq, and_true] at hk
        have hf : ks.find? (fun k' => k'.kid == some (C.thumb (C.pub key))) = some k := by
          cases hf : ks.find? (fun k' => k'.kid == some (C.thumb (C.pub key))) with
          | none =>
            rw [List.find?_eq_none] at hf
            exact absurd (by rw [← hk]; simp) (hf k hm)
          | some k' =>
            have h1 := List.mem_of_find?_eq_some hf
            have h2 : k'.kid = some (C.thumb (C.pub key)) := by simpa using List.find?_some hf
            rw [hu k' h1 (by rw [h2, ← hk])]
        subst hk
        exact verify_single hf rfl rfl rfl (hC.known _ _ _ _ _ _ hn) (hC.correct _ _ _ _ _ _ hn)

/-- The hypotheses are met by a set of three keys, the signer's being the last. -/
example : verifyWithSet exCrypto (some [⟨some "x", none, none, 7⟩, ⟨none, some "enc", none, 8⟩, ⟨some "kkk", some "sig", some "ES512", 3⟩])
    (some ⟨[("iss", .str "a")], [⟨some "entity-statement+jwt", some "kkk", some "ES512", 3⟩]⟩) = some [("iss", .str "a")] := by
  refine C95_any_key_partial exCrypto exScheme ⟨some 3, "ES512"⟩ .entityStatement _ _ ⟨some "kkk", some "sig", some "ES512", 3⟩ _ rfl rfl (by simp) ?_
  intro k' h1 h2
  simp only [List.mem_cons, List.not_mem_nil, or_false] at h1
  rcases h1 with rfl | rfl | rfl
  · simp at h2
  · simp at h2
  · rfl

/-- **C95 fails** if two published keys share a key id: only the first is tried, the one that made the signature is not. -/
theorem C95_same_kid_refuted :
    ∃ ks m, SignedBy exCrypto ks m ⟨some "entity-statement+jwt", some "k", some "ES512", 3⟩ ∧ verifyWithSet exCrypto (some ks) (some m) = none :=
  ⟨[⟨some "k", none, none, 4⟩, ⟨some "k", none, none, 3⟩], ⟨[], [⟨some "entity-statement+jwt", some "k", some "ES512", 3⟩]⟩,
    ⟨by simp, ⟨some "k", none, none, 3⟩, by simp, rfl, rfl, .inl rfl, "ES512", .inr ⟨rfl, by simp [exCrypto]⟩, rfl⟩, rfl⟩

/-! ## C93 -/

/-- The intended meaning of a JWT's type: a key holder signed it under that type. -/
def SignedAs (C : Crypto) (typ : String) (keys : Option (List JKey)) (m : Jws) : Prop :=
  ∃ ks s, keys = some ks ∧ SignedBy C ks m s ∧ s.typ = some typ

/-- **C93** (part): a JWT with a single signature (as in the compact form) that is accepted as a certain type was signed as that type. -/
theorem C93_single_signature_partial (C : Crypto) (typ : String) (keys : Option (List JKey)) (m : Jws) (hs : m.sigs.length = 1) (p : JObj)
    (h : acceptAs C typ keys m = some p) : SignedAs C typ keys m := by
  unfold acceptAs at h
  split at h
  · rename_i ht
    obtain ⟨ks, j, s, h1, h2, _, h4⟩ := C94_verified_is_signed C keys (some m) p h
    cases h2
    refine ⟨ks, s, h1, h4, ?_⟩
    unfold verifyType at ht
    split at ht
    · cases ht
    · rename_i s' rest hr
      have : s = s' := by
        have := h4.1
        rw [hr] at this hs
        simp only [List.length_cons, Nat.add_eq_right, List.length_eq_zero_iff] at hs
        subst hs
        simpa using this
      rw [this]
      simpa using ht
  · cases h

/-- The hypotheses are met by a signed trust mark. -/
example : SignedAs exCrypto "trust-mark+jwt" (some [⟨some "kkk", some "sig", some "ES512", 3⟩])
    ⟨[("iss", .str "a")], [⟨some "trust-mark+jwt", some "kkk", some "ES512", 3⟩]⟩ :=
  C93_single_signature_partial exCrypto _ _ _ rfl [("iss", .str "a")] rfl

/-- **C93 fails** for JWTs in the JSON form with several signatures: a payload that the key holder only ever signed as a trust mark is accepted as an entity
statement, with a worthless first signature that states that type. -/
theorem C93_two_signatures_refuted :
    ∃ (keys : Option (List JKey)) (m : Jws), acceptAs exCrypto "entity-statement+jwt" keys m = some m.payload ∧
      ¬ SignedAs exCrypto "entity-statement+jwt" keys m ∧ SignedAs exCrypto "trust-mark+jwt" keys m := by
  refine ⟨some [⟨some "kkk", some "sig", some "ES512", 3⟩], ⟨[("iss", .str "https://a")],
    [⟨some "entity-statement+jwt", some "kkk", some "ES512", 0⟩, ⟨some "trust-mark+jwt", some "kkk", some "ES512", 3⟩]⟩, rfl, ?_, ?_⟩
  · rintro ⟨ks, s, h1, ⟨h2, k, h3, _, _, _, alg, _, h4⟩, h5⟩
    cases h1
    simp only [List.mem_singleton] at h3
    subst h3
    simp only [List.mem_cons, List.not_mem_nil, or_false] at h2
    rcases h2 with rfl | rfl
    · simp [exCrypto] at h4
    · simp at h5
  · exact ⟨_, ⟨some "trust-mark+jwt", some "kkk", some "ES512", 3⟩, rfl, ⟨by simp, ⟨some "kkk", some "sig", some "ES512", 3⟩, by simp, rfl, rfl, .inr (.inr rfl),
      "ES512", .inl rfl, rfl⟩, rfl⟩

/-- **C93**: what one of the signers signs is accepted as the type of that signer and as no other. -/
theorem C93_own_type (C : Crypto) (hC : Scheme C) (S : JSigner) (kind : SignerKind) (p : JObj) (j : Jws) (ks : List JKey)
    (hj : signAs C S kind (some p) = .ok j) (hk : S.jwks C = .ok ks) (typ : String) :
    acceptAs C typ (some ks) j = some p ↔ typ = kind.typ := by
  obtain ⟨p', hp, hv⟩ := C94_signed_verifies C hC S kind (some p) j ks hj hk
  cases hp
  have ht : verifyType j typ = true ↔ typ = kind.typ := by
    unfold signAs JSigner.jwt at hj
    split at hj
    · cases hj
    · simp only [signWithType] at hj
      split at hj
      · cases hj
      · cases hj
        simp only [verifyType, beq_iff_eq, Option.some.injEq]
        exact ⟨fun h => h.symm, fun h => h.symm⟩
  unfold acceptAs
  constructor
  · intro h
    split at h
    · rename_i h'; exact ht.mp h'
    · cases h
  · intro h
    rw [if_pos (ht.mpr h)]
    exact hv

/-- The hypotheses are met by a delegation, which is not accepted as a trust mark. -/
example : acceptAs exCrypto "trust-mark+jwt" (some [⟨some "kkk", some "sig", some "ES512", 3⟩])
    ⟨[], [⟨some "trust-mark-delegation+jwt", some "kkk", some "ES512", 3⟩]⟩ ≠ some [] :=
  fun h => absurd ((C93_own_type exCrypto exScheme ⟨some 3, "ES512"⟩ .delegation [] _ _ rfl rfl "trust-mark+jwt").mp h) (by decide)

/-- **C93**: each signer writes the type that the parser of its documents asks for. -/
theorem C93_parser_types (C : Crypto) (hC : Scheme C) (S : JSigner) (p : JObj) (j : Jws) (ks : List JKey) (hk : S.jwks C = .ok ks) :
    (signAs C S .entityStatement (some p) = .ok j → acceptAs C "entity-statement+jwt" (some ks) j = some p) ∧
    (signAs C S .trustMark (some p) = .ok j → acceptAs C "trust-mark+jwt" (some ks) j = some p) ∧
    (signAs C S .delegation (some p) = .ok j → acceptAs C "trust-mark-delegation+jwt" (some ks) j = some p) ∧
    (signAs C S .resolveResponse (some p) = .ok j → acceptAs C "resolve-response+jwt" (some ks) j = some p) ∧
    (∀ t, signAs C S (.typed t) (some p) = .ok j → acceptAs C t (some ks) j = some p) :=
  ⟨fun h => (C93_own_type C hC S _ p j ks h hk _).mpr rfl, fun h => (C93_own_type C hC S _ p j ks h hk _).mpr rfl,
    fun h => (C93_own_type C hC S _ p j ks h hk _).mpr rfl, fun h => (C93_own_type C hC S _ p j ks h hk _).mpr rfl,
    fun _ h => (C93_own_type C hC S _ p j ks h hk _).mpr rfl⟩

/-- The hypotheses are met. -/
example : ∃ j ks, JSigner.jwks exCrypto ⟨some 3, "ES512"⟩ = .ok ks ∧ signAs exCrypto ⟨some 3, "ES512"⟩ .trustMark (some []) = .ok j := ⟨_, _, rfl, rfl⟩

/-- The types of the four signers differ, so nothing signed as one of them is accepted as another. -/
theorem C93_types_differ (a b : SignerKind) (ha : ∀ t, a ≠ .typed t) (hb : ∀ t, b ≠ .typed t) (h : a.typ = b.typ) : a = b := by
  cases a <;> cases b <;> first | rfl | (exfalso; revert h; decide) | exact absurd rfl (ha _) | exact absurd rfl (hb _)

/-- **C93**: a trust mark, delegation or resolve response is only read from a JWT that states the respective type. -/
theorem C93_parsers (R : JWTReader) (jwt : String) :
    (∀ m, parseMark R jwt = some m → ∃ c, R jwt = some c ∧ c.typ = "trust-mark+jwt") ∧
    (∀ d, parseDelegation R jwt = some d → ∃ c, R jwt = some c ∧ c.typ = "trust-mark-delegation+jwt") ∧
    (∀ dec q r, parseResolveResponse R dec q jwt = some r → ∃ c, R jwt = some c ∧ c.typ = "resolve-response+jwt") := by
  refine ⟨?_, ?_, ?_⟩
  · intro m h
    unfold parseMark at h
    split at h
    · cases h
    · rename_i c hc
      split at h
      · cases h
      · rename_i ht; exact ⟨c, hc, by simpa using ht⟩
  · intro m h
    unfold parseDelegation at h
    split at h
    · cases h
    · rename_i c hc
      split at h
      · cases h
      · rename_i ht; exact ⟨c, hc, by simpa using ht⟩
  · intro dec q r h
    unfold parseResolveResponse at h
    split at h
    · cases h
    · rename_i c hc
      split at h
      · cases h
      · rename_i ht; exact ⟨c, hc, by simpa using ht⟩

/-! ## C96 -/

/-- **C96**: signing never panics; without a key, or for something that cannot be written as JSON, it is an error, and otherwise it fails only if the
cryptographic operation does. -/
theorem C96_signing_no_panic (C : Crypto) (S : JSigner) (kind : SignerKind) (payload : Option JObj) :
    signAs C S kind payload ≠ .error .panic ∧ (S.key = none → signAs C S kind payload = .error .error) ∧
    (payload = none → signAs C S kind payload = .error .error) ∧
    (∀ k p, S.key = some k → payload = some p → (C.sign S.alg k kind.typ (C.thumb (C.pub k)) p).isSome →
      ∃ j, signAs C S kind payload = .ok j ∧ j.payload = p) := by
  unfold signAs JSigner.jwt signWithType
  refine ⟨?_, ?_, ?_, ?_⟩
  · cases S.key with
    | none => simp
    | some k => cases payload with
      | none => simp
      | some p => simp only; split <;> simp
  · intro h; rw [h]
  · intro h; rw [h]; cases S.key <;> rfl
  · intro k p h1 h2 h3
    obtain ⟨n, hn⟩ := Option.isSome_iff_exists.mp h3
    rw [h1, h2]
    simp only [hn]
    exact ⟨_, rfl, rfl⟩

/-- The hypotheses are met by the toy scheme. -/
example : ∃ j, signAs exCrypto ⟨some 3, "ES512"⟩ .trustMark (some []) = .ok j ∧ j.payload = [] :=
  (C96_signing_no_panic exCrypto ⟨some 3, "ES512"⟩ .trustMark (some [])).2.2.2 3 [] rfl rfl rfl

/-- **C96 fails** for publishing keys: a signer without key panics when asked for its key set, and so does creating a federation entity with it, which asks for the
key set (federation.go:55). -/
theorem C96_jwks_refuted (C : Crypto) (alg : String) : JSigner.jwks C ⟨none, alg⟩ = .error .panic := rfl

/-! ## C97 -/

/-- A codec that reads what it writes. -/
def CodecOk (K : KeyCodec) : Prop := ∀ k, K.dec (K.enc k) = some k

theorem decKeys_enc {K : KeyCodec} (hK : CodecOk K) (ks : List JKey) : decKeys K (ks.map K.enc) = some ks := by
  induction ks with
  | nil => rfl
  | cons k ks ih => simp only [List.map_cons, decKeys, hK k, ih]

/-- **C97**: a key set that was written to JSON, the cache or YAML can be read back, has the same keys in the same order, and verifies exactly the same JWTs. -/
theorem C97_same_keys (K : KeyCodec) (hK : CodecOk K) (keys : Option (List JKey)) :
    ∃ keys', throughJSON K keys = some keys' ∧ keys'.getD [] = keys.getD [] ∧
      ∀ C m, verifyWithSet C keys' m = verifyWithSet C keys m := by
  cases keys with
  | none => exact ⟨none, rfl, rfl, fun _ _ => rfl⟩
  | some ks =>
    have h : throughJSON K (some ks) = match ks with | [] => some none | ks => some (some ks) := by
      show (match decKeys K (ks.map K.enc) with
        | none => none
        | some [] => some none
        | some ks => some (some ks)) = _
      rw [decKeys_enc hK]
      cases ks <;> rfl
    rw [h]
    cases ks with
    | nil =>
      refine ⟨none, rfl, rfl, ?_⟩
      intro C m
      cases m <;> rfl
    | cons k ks => exact ⟨_, rfl, rfl, fun _ _ => rfl⟩

/-- A codec exists. -/
example : CodecOk ⟨fun k => .arr [.num k.key, match k.kid with | none => .null | some s => .str s, match k.use with | none => .null | some s => .str s,
      match k.alg with | none => .null | some s => .str s],
    fun v => match v with
      | .arr [.num q, a, b, c] =>
        let r : JV → Option String := fun x => match x with | .str s => some s | _ => none
        some ⟨r a, r b, r c, q.num.toNat⟩
      | _ => none⟩ := by
  rintro ⟨kid, use, alg, key⟩
  cases kid <;> cases use <;> cases alg <;> simp

end Oidfed
