import Verif.Lemmas.Issue
import Verif.Props.Unixtime
/-!
# C37, C39, C41: verifying and issuing trust marks and delegations
-/

namespace Oidfed
open Spec

/-! ## A concrete issuer and owner -/

namespace Ex

/-- A signer that makes one trust mark JWT and one delegation JWT. -/
def signer : Signer := fun typ _ => if typ = "trust-mark+jwt" then some "m" else some "d"

/-- Issue time used in the examples: 17 November 2025 and 200 nanoseconds. -/
def t0 : Time := 1763352000000000200

def spec (extra : AMap JV) : MarkSpec := ⟨"tm", 3600 * second, "", "", extra, false, "d"⟩

def issuer (extra : AMap JV) : MarkIssuer := newMarkIssuer "https://tmi" signer [spec extra]

def owner (lifetime : Int) : MarkOwner := ⟨"https://owner", signer, [⟨"tm", lifetime, "", []⟩]⟩

/-- Reads the two JWTs: the mark issued at `t0` for `https://leaf` and the delegation to `https://tmi`. -/
def reader (extra : AMap JV) (lifetime : Int) (custom : List Int) : JWTReader := fun s =>
  if s = "m" then some ⟨"trust-mark+jwt", (issuer extra).payload (spec extra) t0 "https://leaf" [], 7⟩
  else if s = "d" then
    some ⟨"trust-mark-delegation+jwt", (owner lifetime).payload ⟨"tm", lifetime, "", []⟩ t0 "https://tmi" custom, 8⟩
  else none

/-- Message `n` is signed with key `n`. -/
def sig : SigOracle := fun ks r => ks.contains r

end Ex

/-! ## C37 -/

/-- **C37**: verification accepts exactly the marks that are in order, for every mark whose cached delegation (if any) is the one in its
JWT. Of several owners only the first counts. -/
theorem C37_verify_external (R : JWTReader) (sig : SigOracle) (nowM nowD : Time) (keys : Keys) (owners : List Owner) (m : Mark)
    (hc : CacheOk R m) :
    (m.verifyExternal R sig nowM nowD keys owners).1 = true ↔ MarkOk R sig nowM nowD keys owners.head? m :=
  (verifyExternal_spec hc).1

/-- **C37** for trust mark objects: accepted exactly if the JWT is a trust mark of the type the object names and in order. -/
theorem C37_verify_info (R : JWTReader) (sig : SigOracle) (nowM nowD : Time) (keys : Keys) (owners : List Owner) (i : Info)
    (hi : InfoOk R i) :
    (i.verifyExternal R sig nowM nowD keys owners).1 = true ↔ InfoAccepted R sig nowM nowD keys owners.head? i :=
  (infoExternal_spec hi).1

/-- **C37** for delegations on their own: accepted exactly if valid now and signed with the keys of the owner that the anchor names for the type. -/
theorem C37_delegation (sig : SigOracle) (now : Time) (ta : MarkAnchor) (d : Delegation) :
    d.verifyFederation sig now ta = true ↔ ValidAt now d.iat d.exp ∧ ∃ o, AMap.get ta.owners d.type = some o ∧ SignedRaw sig o.jwks d.raw := by
  unfold Delegation.verifyFederation
  rw [← valid_iff]
  cases verifyTime now (some d.iat) d.exp with
  | false => simp
  | true =>
    cases AMap.get ta.owners d.type with
    | none => simp
    | some o => simp [signedRaw_iff]

/-- One verification of a trust mark object: clock readings, keys, owners. -/
structure VerifyCall where
  nowM : Time
  nowD : Time
  keys : Keys
  owners : List Owner

/-- The object after a number of verifications, which may have filled its caches. -/
def afterCalls (R : JWTReader) (sig : SigOracle) : List VerifyCall → Info → Info
  | [], i => i
  | c :: cs, i => afterCalls R sig cs (i.verifyExternal R sig c.nowM c.nowD c.keys c.owners).2

/-- **C37** over histories: what earlier verifications left behind has no influence. A freshly decoded object is accepted exactly if its
JWT is in order, whatever was verified before, and with whatever keys. -/
theorem C37_history (R : JWTReader) (sig : SigOracle) (calls : List VerifyCall) (nowM nowD : Time) (keys : Keys)
    (owners : List Owner) (i : Info) (hi : InfoOk R i) :
    ((afterCalls R sig calls i).verifyExternal R sig nowM nowD keys owners).1 = true ↔
      InfoAccepted R sig nowM nowD keys owners.head? i := by
  induction calls generalizing i with
  | nil => exact (infoExternal_spec hi).1
  | cons c cs ih =>
    obtain ⟨_, h2, h3, h4, _⟩ := infoExternal_spec (sig := sig) (nowM := c.nowM) (nowD := c.nowD) (keys := c.keys) (owners := c.owners) hi
    rw [afterCalls, ih _ h2]
    unfold InfoAccepted
    rw [h3, h4]

/-- A freshly decoded object has no cache. -/
example (R : JWTReader) (type jwt : String) : InfoOk R ⟨type, jwt, [], none⟩ := by intro m h; cases h

/-- Verifying a list keeps exactly the objects that are in order, in their order. -/
theorem C37_verified_external (R : JWTReader) (sig : SigOracle) (now : Nat → Time × Time) (keys : Keys) (owners : List Owner)
    (is : List Info) (hi : ∀ i ∈ is, InfoOk R i) (n : Nat) :
    ∃ keep : List Bool, keep.length = is.length ∧
      (∀ k i, is[k]? = some i → (keep[k]? = some true ↔
        InfoAccepted R sig (now (n+k)).1 (now (n+k)).2 keys owners.head? i)) ∧
      (verifiedExternal R sig now keys owners n is).map (fun i => (i.type, i.jwt)) =
        ((is.zip keep).filter (fun x => x.2)).map (fun x => (x.1.type, x.1.jwt)) := by
  induction is generalizing n with
  | nil => exact ⟨[], rfl, by simp, rfl⟩
  | cons i is ih =>
    obtain ⟨keep, hl, hk, he⟩ := ih (fun j hj => hi j (List.mem_cons_of_mem _ hj)) (n+1)
    obtain ⟨h1, h2, h3, h4, _⟩ := infoExternal_spec (sig := sig) (nowM := (now n).1) (nowD := (now n).2) (keys := keys)
      (owners := owners) (hi i List.mem_cons_self)
    have hidx : ∀ b, ((b = true) ↔ InfoAccepted R sig (now n).1 (now n).2 keys owners.head? i) →
        ∀ k j, (i :: is)[k]? = some j → ((b :: keep)[k]? = some true ↔
          InfoAccepted R sig (now (n+k)).1 (now (n+k)).2 keys owners.head? j) := by
      intro b hb k j hj
      cases k with
      | zero =>
        simp only [List.getElem?_cons_zero, Option.some.injEq] at hj ⊢
        subst hj
        exact hb
      | succ k =>
        simp only [List.getElem?_cons_succ] at hj ⊢
        have := hk k j hj
        rw [show n + 1 + k = n + (k + 1) by omega] at this
        exact this
    cases hv : i.verifyExternal R sig (now n).1 (now n).2 keys owners with
    | mk b i' =>
      rw [hv] at h1 h3 h4
      simp only at h1 h3 h4
      refine ⟨b :: keep, by simp [hl], hidx b h1, ?_⟩
      cases b with
      | true => simp [verifiedExternal, hv, he, h3, h4]
      | false => simp [verifiedExternal, hv, he]

/-! ## C39 -/

/-- What is assumed of signing: the JWT made for this payload is read as this payload with this header type, and verifies under these
keys. -/
def SignsAs (S : Signer) (R : JWTReader) (sig : SigOracle) (keys : List Nat) (typ : String) (p : JObj) : Prop :=
  ∀ jwt, S typ p = some jwt → ∃ raw, R jwt = some ⟨typ, p, raw⟩ ∧ sig keys raw = true

theorem lifetime_iff (configured : Int) (custom : List Int) (l : Int) :
    Lifetime configured custom l ↔ l = lifetimeOf configured custom := by
  unfold Lifetime lifetimeOf
  cases custom with
  | nil => simp
  | cons a as => simp [eq_comm]

/-- The last of the specs given for a type. -/
def LastSpec (specs : List MarkSpec) (type : String) (s : MarkSpec) : Prop :=
  ∃ pre post, specs = pre ++ s :: post ∧ s.type = type ∧ ∀ x ∈ post, x.type ≠ type

/-- **C39**, known types: the issuer uses the last spec it was given for the type. -/
theorem C39_spec_used (id : ID) (sign : Signer) (specs added : List MarkSpec) (type : String) (s : MarkSpec) :
    (added.foldl MarkIssuer.add (newMarkIssuer id sign specs)).spec type = some s ↔ LastSpec (specs ++ added) type s := by
  have hfold : ∀ (I : MarkIssuer), (added.foldl MarkIssuer.add I).specs = added.reverse ++ I.specs := by
    induction added with
    | nil => intro I; rfl
    | cons a as ih => intro I; rw [List.foldl_cons, ih]; simp [MarkIssuer.add]
  unfold MarkIssuer.spec
  rw [hfold]
  unfold newMarkIssuer
  simp only [← List.reverse_append]
  rw [List.find?_eq_some_iff_append]
  constructor
  · rintro ⟨h1, as, bs, h2, h3⟩
    refine ⟨bs.reverse, as.reverse, ?_, by simpa using h1, ?_⟩
    · have := congrArg List.reverse h2
      simpa using this
    · intro x hx
      simpa using h3 x (by simpa using hx)
  · rintro ⟨pre, post, h1, h2, h3⟩
    refine ⟨by simpa using h2, post.reverse, pre.reverse, by rw [h1]; simp, ?_⟩
    intro x hx
    simpa using h3 x (by simpa using hx)

/-- **C39**: an unknown type is refused. -/
theorem C39_unknown_type_refused (I : MarkIssuer) (now : Time) (type sub : String) (custom : List Int)
    (h : ∀ s ∈ I.specs, s.type ≠ type) : I.issue now type sub custom = none := by
  have : I.spec type = none := by
    unfold MarkIssuer.spec
    rw [List.find?_eq_none]
    intro x hx
    simpa using h x hx
  unfold MarkIssuer.issue
  rw [this]

/-- A known type is issued whenever signing works. -/
theorem C39_known_type_issued (I : MarkIssuer) (now : Time) (type sub : String) (custom : List Int)
    (h : ∃ s ∈ I.specs, s.type = type) (hsign : ∀ typ p, I.sign typ p ≠ none) : ∃ info, I.issue now type sub custom = some info := by
  obtain ⟨s, hs, ht⟩ := h
  cases hsp : I.spec type with
  | none =>
    unfold MarkIssuer.spec at hsp
    rw [List.find?_eq_none] at hsp
    exact absurd (by simpa using ht) (hsp s hs)
  | some s' =>
    unfold MarkIssuer.issue
    rw [hsp]
    simp only
    cases hj : I.sign "trust-mark+jwt" (I.payload s' now sub custom) with
    | none => exact absurd hj (hsign _ _)
    | some j => exact ⟨_, rfl⟩

/-- What an issued JWT says. -/
theorem issued_mark {I : MarkIssuer} {R : JWTReader} {sig : SigOracle} {keys : List Nat} {now : Time} {type sub : String}
    {custom : List Int} {info : Info} {s : MarkSpec} (hs : I.spec type = some s)
    (h : I.issue now type sub custom = some info) (hS : SignsAs I.sign R sig keys "trust-mark+jwt" (I.payload s now sub custom))
    (hw : s.extra.WF) (hx : ∀ k ∈ s.extra.keys, ∀ t ∈ markTags, Apart t k) :
    info.type = type ∧ InfoOk R info ∧ ∃ raw, sig keys raw = true ∧ parseMark R info.jwt = some
      ⟨I.id, sub, type, unmarshalTime (marshalTime now), (s.expiry now custom).map (fun e => unmarshalTime (marshalTime e)), s.delegationJWT,
        some raw, none⟩ := by
  have hty : s.type = type := by
    have := List.find?_some hs
    simpa using this
  unfold MarkIssuer.issue at h
  rw [hs] at h
  simp only at h
  cases hj : I.sign "trust-mark+jwt" (I.payload s now sub custom) with
  | none => rw [hj] at h; cases h
  | some jwt =>
    rw [hj] at h
    simp only [Option.some.injEq] at h
    subst h
    obtain ⟨raw, h1, h2⟩ := hS jwt hj
    refine ⟨hty, ?_, raw, h2, ?_⟩
    · intro m hm hr
      simp only [Option.some.injEq] at hm
      subst hm
      simp at hr
    · unfold parseMark
      simp only [h1]
      rw [if_neg (by simp)]
      have := markStruct_read I.id sub s.type now (s.expiry now custom) s.logo s.ref s.delegationJWT s.extra hw hx raw
      unfold MarkIssuer.payload
      rw [this, hty]

/-- **C39** (part): the JWT of an issued trust mark is about the requested type and subject, from the issuer. Times are exact to
two microseconds. It is missing that this holds also if the spec's extra claims use names of trust mark claims. -/
theorem C39_claims_partial (I : MarkIssuer) (R : JWTReader) (sig : SigOracle) (keys : List Nat) (now : Time) (type sub : String)
    (custom : List Int) (info : Info) (s : MarkSpec) (hs : I.spec type = some s) (h : I.issue now type sub custom = some info)
    (hS : SignsAs I.sign R sig keys "trust-mark+jwt" (I.payload s now sub custom))
    (hw : s.extra.WF) (hx : ∀ k ∈ s.extra.keys, ∀ t ∈ markTags, Apart t k)
    (l : Int) (hl : Lifetime s.lifetime custom l) (hr : InRange now) (hre : InRange (now + l)) :
    info.type = type ∧ ∃ m, parseMark R info.jwt = some m ∧ m.iss = I.id ∧ m.sub = sub ∧ m.type = type ∧ |m.iat - now| < 2000 ∧
      (l = 0 → m.exp = none) ∧ (l ≠ 0 → ∃ e, m.exp = some e ∧ |e - (now + l)| < 2000) := by
  obtain ⟨h1, _, raw, _, h3⟩ := issued_mark hs h hS hw hx
  refine ⟨h1, _, h3, rfl, rfl, rfl, C57_precision_partial _ hr, ?_, ?_⟩
  all_goals
    rw [lifetime_iff] at hl
    unfold MarkSpec.expiry
    rw [← hl]
    intro h0
  · simp [h0]
  · simp only [ne_eq, h0, not_false_eq_true, if_true, Option.map_some]
    exact ⟨_, rfl, C57_precision_partial _ hre⟩

theorem window_key {iat e now nowV l : Int} (h1 : |iat - now| < 2000) (h2 : |e - (now + l)| < 2000) :
    (now + 2000 ≤ nowV → iat ≤ nowV) ∧ (nowV ≤ now + l - 2000 → nowV ≤ e) ∧ (iat ≤ nowV → now - 2000 < nowV) ∧
    (nowV ≤ e → nowV < now + l + 2000) := by
  rw [abs_lt] at h1 h2
  refine ⟨?_, ?_, ?_, ?_⟩ <;> intro h <;> omega

/-- A time within range and what is near it are not the zero time. -/
theorem near_ne_zero {t e : Int} (ht : InRange t) (he : |e - t| < 2000) : e ≠ Time.zero := by
  have h1 : |t| ≤ 2 ^ 62 := ht
  rw [abs_le] at h1
  rw [abs_lt] at he
  have h2 : Time.zero = (-62135596800000000000 : Int) := by decide
  rw [h2]
  norm_num at h1
  intro hc
  rw [hc] at he
  omega

/-- **C39** (part): an issued trust mark verifies under the issuer's keys from (two microseconds after) issuance until (two microseconds
before) its expiry, and not (more than two microseconds) outside of that time. -/
theorem C39_verifies_partial (I : MarkIssuer) (R : JWTReader) (sig : SigOracle) (keys : List Nat) (hne : keys ≠ []) (now : Time)
    (type sub : String) (custom : List Int) (info : Info) (s : MarkSpec) (hs : I.spec type = some s)
    (h : I.issue now type sub custom = some info)
    (hS : SignsAs I.sign R sig keys "trust-mark+jwt" (I.payload s now sub custom))
    (hw : s.extra.WF) (hx : ∀ k ∈ s.extra.keys, ∀ t ∈ markTags, Apart t k)
    (l : Int) (hl : Lifetime s.lifetime custom l) (hr : InRange now) (hre : InRange (now + l)) (nowV nowD : Time) :
    (now + 2000 ≤ nowV → (l = 0 ∨ nowV ≤ now + l - 2000) → (info.verifyExternal R sig nowV nowD (some keys) []).1 = true) ∧
    ((info.verifyExternal R sig nowV nowD (some keys) []).1 = true → now - 2000 < nowV ∧ (l = 0 ∨ nowV < now + l + 2000)) := by
  obtain ⟨h1, hi, raw, h2, h3⟩ := issued_mark hs h hS hw hx
  obtain ⟨_, m, hm, _, _, hmt, hiat, h0, h1'⟩ := C39_claims_partial I R sig keys now type sub custom info s hs h hS hw hx l hl hr hre
  have hz : unmarshalTime (marshalTime now) ≠ Time.zero := by
    exact near_ne_zero hr (C57_precision_partial _ hr)
  rw [hm] at h3
  have hmi : m.iat ≠ Time.zero := by
    have := Option.some.inj h3
    rw [this]
    exact hz
  have hraw : m.raw = some raw := by have := Option.some.inj h3; rw [this]
  rw [C37_verify_info R sig nowV nowD (some keys) [] info hi]
  have hsig : SignedRaw sig (some keys) m.raw := ⟨keys, raw, rfl, hne, hraw, h2⟩
  constructor
  · intro ha hb
    refine ⟨m, hm, hmt.trans h1.symm, ⟨.inr ?_, ?_⟩, hsig, by simp⟩
    · exact (window_key (l := 0) (e := now + 0) hiat (by norm_num)).1 ha
    · intro e he
      by_cases hl0 : l = 0
      · rw [h0 hl0] at he; cases he
      · obtain ⟨e', he', hb'⟩ := h1' hl0
        rw [he] at he'; cases he'
        right
        rcases hb with hb | hb
        · exact absurd hb hl0
        · exact (window_key hiat hb').2.1 hb
  · rintro ⟨m', hm', _, ⟨hv1, hv2⟩, _⟩
    rw [hm] at hm'; cases hm'
    constructor
    · rcases hv1 with hv1 | hv1
      · exact absurd hv1 hmi
      · exact (window_key (l := 0) (e := now + 0) hiat (by norm_num)).2.2.1 hv1
    · by_cases hl0 : l = 0
      · exact .inl hl0
      · right
        obtain ⟨e', he', hb'⟩ := h1' hl0
        rcases hv2 e' he' with hz' | hz'
        · exfalso
          exact near_ne_zero hre hb' hz'
        · exact (window_key hiat hb').2.2.2 hz'

/-- The hypotheses are met: the example issuer, and a moment between issuance and expiry. -/
example : ∃ info, (Ex.issuer [("level", .str "high")]).issue Ex.t0 "tm" "https://leaf" [] = some info ∧
    (info.verifyExternal (Ex.reader [("level", .str "high")] 0 []) Ex.sig (Ex.t0 + 5000) 0 (some [7]) []).1 = true := by
  refine ⟨_, rfl, ?_⟩
  refine (C39_verifies_partial (Ex.issuer [("level", .str "high")]) _ Ex.sig [7] (by simp) Ex.t0 "tm" "https://leaf" [] _
    (Ex.spec [("level", .str "high")]) rfl rfl ?_ ?_ ?_ (3600 * second) (.inr ⟨rfl, rfl⟩) (by unfold InRange; decide)
    (by unfold InRange; decide) (Ex.t0 + 5000) 0).1 (by decide) (.inr (by decide))
  · intro jwt hj
    exact ⟨7, by cases hj; rfl, rfl⟩
  · simp [AMap.WF, AMap.keys, Ex.spec]
  · simp only [Ex.spec, AMap.keys, Apart]; decide

theorem t0_read : unmarshalTime (marshalTime Ex.t0) = Ex.t0 + 38 := by
  have h1 : marshalTime Ex.t0 = 1763352000 + 1 / 2 ^ 22 := by
    unfold marshalTime
    rw [if_neg (by decide)]
    have e : ((wrap64 Ex.t0 : ℤ) : ℚ) = 1763352000000000200 := by
      rw [show wrap64 Ex.t0 = 1763352000000000200 by decide]; norm_num
    rw [e]
    have f1 : float64 1763352000000000200 = 1763352000000000256 := by
      rw [float64_eq (k := 8) (by norm_num [abs_of_pos]) (by norm_num [abs_of_pos])]
      have hf : ⌊(1763352000000000200 / 2 ^ (8 : ℤ) : ℚ)⌋ = 6888093750000000 := by
        rw [Int.floor_eq_iff]; norm_num
      unfold nearestEven
      rw [hf]
      norm_num
    rw [f1, float64_eq (k := -22) (by norm_num [abs_of_pos]) (by norm_num [abs_of_pos])]
    have hf : ⌊(1763352000000000256 / 10 ^ 9 / 2 ^ (-22 : ℤ) : ℚ)⌋ = 1763352000 * 4194304 + 1 := by
      rw [Int.floor_eq_iff]; norm_num
    unfold nearestEven
    rw [hf]
    norm_num
  rw [h1]
  have h2 : truncZ (1763352000 + 1 / 2 ^ 22) = 1763352000 := by
    unfold truncZ
    rw [if_pos (by norm_num), Int.floor_eq_iff]; norm_num
  rw [unmarshalTime_eq (by norm_num [abs_of_pos]), h2]
  have h3 : float64 ((1763352000 + 1 / 2 ^ 22 - ((1763352000 : ℤ) : ℚ)) * 10 ^ 9) = 1953125 / 8192 := by
    have : (1763352000 + 1 / 2 ^ 22 - ((1763352000 : ℤ) : ℚ)) * 10 ^ 9 = (1953125 : ℤ) * 2 ^ (-13 : ℤ) := by norm_num
    rw [float64_exact this (by decide)]
    norm_num
  rw [h3]
  have h4 : truncZ (1953125 / 8192) = 238 := by
    unfold truncZ
    rw [if_pos (by norm_num), Int.floor_eq_iff]; norm_num
  rw [h4]
  decide

/-- **C39 fails** at the moment of issuance: a trust mark issued at `t0` is refused as not yet valid at `t0`, because its issue time was
rounded up. -/
theorem C39_at_issuance_refuted : ∃ info, (Ex.issuer []).issue Ex.t0 "tm" "https://leaf" [] = some info ∧
    SignsAs (Ex.issuer []).sign (Ex.reader [] 0 []) Ex.sig [7] "trust-mark+jwt" ((Ex.issuer []).payload (Ex.spec []) Ex.t0 "https://leaf" []) ∧
    (info.verifyExternal (Ex.reader [] 0 []) Ex.sig Ex.t0 Ex.t0 (some [7]) []).1 = false := by
  have hS : SignsAs (Ex.issuer []).sign (Ex.reader [] 0 []) Ex.sig [7] "trust-mark+jwt"
      ((Ex.issuer []).payload (Ex.spec []) Ex.t0 "https://leaf" []) := by
    intro jwt hj
    exact ⟨7, by cases hj; rfl, rfl⟩
  refine ⟨_, rfl, hS, ?_⟩
  obtain ⟨_, hi, raw, _, h3⟩ := issued_mark (I := Ex.issuer []) (now := Ex.t0) (type := "tm") (sub := "https://leaf") (custom := [])
    (s := Ex.spec []) rfl rfl hS (by simp [AMap.WF, AMap.keys, Ex.spec]) (by simp [AMap.keys, Ex.spec])
  rw [Bool.eq_false_iff]
  rw [Ne, C37_verify_info _ _ _ _ _ _ _ hi]
  rintro ⟨m, hm, _, ⟨hv, _⟩, _⟩
  rw [h3] at hm
  cases hm
  simp only [t0_read] at hv
  revert hv
  decide

/-- **C39 fails** if the spec's extra claims use the name of a trust mark claim: the mark requested for `https://leaf` is about
`https://other`, and verifies. -/
theorem C39_extra_claims_refuted : ∃ info m, (Ex.issuer [("sub", .str "https://other")]).issue Ex.t0 "tm" "https://leaf" [] = some info ∧
    parseMark (Ex.reader [("sub", .str "https://other")] 0 []) info.jwt = some m ∧ m.sub = "https://other" :=
  ⟨_, _, rfl, rfl, rfl⟩

/-- **C39** with delegation (part): a mark issued with a delegation the owner made out to the issuer for this type verifies also
against that owner, while both are valid. -/
theorem C39_delegated_partial (I : MarkIssuer) (O : MarkOwner) (R : JWTReader) (sig : SigOracle) (keys okeys : List Nat) (hne : keys ≠ [])
    (hone : okeys ≠ []) (now nowO : Time) (type sub : String) (custom customO : List Int) (info : Info) (s : MarkSpec) (o : OwnedMark)
    (hs : I.spec type = some s) (ho : O.spec type = some o) (h : I.issue now type sub custom = some info)
    (hd : O.delegate nowO type I.id customO = some s.delegationJWT) (hde : s.delegationJWT ≠ "")
    (hS : SignsAs I.sign R sig keys "trust-mark+jwt" (I.payload s now sub custom))
    (hO : SignsAs O.sign R sig okeys "trust-mark-delegation+jwt" (O.payload o nowO I.id customO))
    (hw : s.extra.WF) (hx : ∀ k ∈ s.extra.keys, ∀ t ∈ markTags, Apart t k)
    (hwo : o.extra.WF) (hxo : ∀ k ∈ o.extra.keys, ∀ t ∈ delegTags, Apart t k)
    (l lo : Int) (hl : Lifetime s.lifetime custom l) (hlo : Lifetime o.lifetime customO lo)
    (hr : InRange now) (hre : InRange (now + l)) (hro : InRange nowO) (hreo : InRange (nowO + lo)) (nowV nowD : Time)
    (hv : now + 2000 ≤ nowV) (hv' : l = 0 ∨ nowV ≤ now + l - 2000)
    (hd1 : nowO + 2000 ≤ nowD) (hd2 : o.lifetime = 0 ∨ nowD ≤ nowO + lo - 2000) :
    (info.verifyExternal R sig nowV nowD (some keys) [⟨O.id, some okeys⟩]).1 = true := by
  obtain ⟨h1, hi, raw, h2, h3⟩ := issued_mark hs h hS hw hx
  have hplain := (C39_verifies_partial I R sig keys hne now type sub custom info s hs h hS hw hx l hl hr hre nowV nowD).1 hv hv'
  rw [C37_verify_info R sig nowV nowD (some keys) [] info hi] at hplain
  rw [C37_verify_info R sig nowV nowD (some keys) _ info hi]
  obtain ⟨m, hm, hmt, hmv, hms, _⟩ := hplain
  refine ⟨m, hm, hmt, hmv, hms, ?_⟩
  rintro _ ⟨⟩
  rw [hm] at h3
  have hmm := Option.some.inj h3
  have hot : o.id = type := by
    have := List.find?_some ho
    simpa using this
  unfold MarkOwner.delegate at hd
  rw [ho] at hd
  simp only at hd
  obtain ⟨rawd, hr1, hr2⟩ := hO _ hd
  have hread := delegStruct_read O.id I.id o.id nowO (o.expiry nowO customO) o.ref o.extra hwo hxo rawd
  refine ⟨by rw [hmm]; exact hde, ⟨O.id, I.id, o.id, unmarshalTime (marshalTime nowO),
    (o.expiry nowO customO).map (fun e => unmarshalTime (marshalTime e)), some rawd⟩, ?_, ?_, rfl, ?_, ?_, ?_⟩
  · rw [hmm]
    unfold parseDelegation
    simp only [hr1]
    rw [if_neg (by simp)]
    exact hread
  · rw [hmm]; exact hot
  · rw [hmm]
  · refine ⟨.inr ((window_key (l := 0) (e := nowO + 0) (C57_precision_partial _ hro) (by norm_num)).1 hd1), ?_⟩
    intro e he
    rw [lifetime_iff] at hlo
    unfold OwnedMark.expiry at he
    simp only [← hlo] at he
    by_cases h0 : o.lifetime = 0
    · simp [h0] at he
    · simp only [ne_eq, h0, not_false_eq_true, if_true, Option.map_some, Option.some.injEq] at he
      right
      rcases hd2 with hd2 | hd2
      · exact absurd hd2 h0
      · rw [← he]
        exact (window_key (C57_precision_partial _ hro) (C57_precision_partial _ hreo)).2.1 hd2
  · exact ⟨okeys, rawd, rfl, hone, rfl, hr2⟩

example : ∃ info, (Ex.issuer []).issue Ex.t0 "tm" "https://leaf" [] = some info ∧
    (Ex.owner 0).delegate Ex.t0 "tm" "https://tmi" [] = some "d" ∧
    (info.verifyExternal (Ex.reader [] 0 []) Ex.sig (Ex.t0 + 5000) (Ex.t0 + 6000) (some [7]) [⟨"https://owner", some [8]⟩]).1 = true := by
  refine ⟨_, rfl, rfl, ?_⟩
  refine C39_delegated_partial (Ex.issuer []) (Ex.owner 0) _ Ex.sig [7] [8] (by simp) (by simp) Ex.t0 Ex.t0 "tm" "https://leaf" [] [] _
    (Ex.spec []) ⟨"tm", 0, "", []⟩ rfl rfl rfl rfl (by decide) ?_ ?_ ?_ ?_ ?_ ?_ (3600 * second) 0 (.inr ⟨rfl, rfl⟩) (.inr ⟨rfl, rfl⟩)
    (by unfold InRange; decide) (by unfold InRange; decide) (by unfold InRange; decide) (by unfold InRange; decide)
    (Ex.t0 + 5000) (Ex.t0 + 6000) (by decide) (.inr (by decide)) (by decide) (.inl rfl)
  · intro jwt hj; exact ⟨7, by cases hj; rfl, rfl⟩
  · intro jwt hj; exact ⟨8, by cases hj; rfl, rfl⟩
  · simp [AMap.WF, AMap.keys, Ex.spec]
  · simp [AMap.keys, Ex.spec]
  · simp [AMap.WF, AMap.keys]
  · simp [AMap.keys]

/-! ## C41 -/

/-- **C41** (part): if the owner has configured a lifetime for the mark, a delegation expires after the caller's lifetime, or else after the
configured one (exact to two microseconds); if none is configured and the caller gives none, it never expires. Missing: the caller's
lifetime if none is configured. -/
theorem C41_lifetime_partial (O : MarkOwner) (R : JWTReader) (sig : SigOracle) (keys : List Nat) (now : Time) (type sub : String)
    (custom : List Int) (jwt : String) (o : OwnedMark) (ho : O.spec type = some o) (h : O.delegate now type sub custom = some jwt)
    (hS : SignsAs O.sign R sig keys "trust-mark-delegation+jwt" (O.payload o now sub custom))
    (hw : o.extra.WF) (hx : ∀ k ∈ o.extra.keys, ∀ t ∈ delegTags, Apart t k)
    (l : Int) (hl : Lifetime o.lifetime custom l) (hr : InRange now) (hre : InRange (now + l)) :
    ∃ d, parseDelegation R jwt = some d ∧ d.iss = O.id ∧ d.sub = sub ∧ d.type = type ∧ |d.iat - now| < 2000 ∧
      (o.lifetime ≠ 0 → ∃ e, d.exp = some e ∧ |e - (now + l)| < 2000) ∧ (o.lifetime = 0 → d.exp = none) := by
  have hot : o.id = type := by
    have := List.find?_some ho
    simpa using this
  unfold MarkOwner.delegate at h
  rw [ho] at h
  simp only at h
  obtain ⟨raw, hr1, hr2⟩ := hS _ h
  have hread := delegStruct_read O.id sub o.id now (o.expiry now custom) o.ref o.extra hw hx raw
  refine ⟨⟨O.id, sub, o.id, unmarshalTime (marshalTime now), (o.expiry now custom).map (fun e => unmarshalTime (marshalTime e)), some raw⟩,
    ?_, rfl, rfl, hot, C57_precision_partial _ hr, ?_, ?_⟩
  · unfold parseDelegation
    simp only [hr1]
    rw [if_neg (by simp)]
    exact hread
  · intro h0
    rw [lifetime_iff] at hl
    unfold OwnedMark.expiry
    simp only [ne_eq, h0, not_false_eq_true, if_true, Option.map_some, ← hl]
    exact ⟨_, rfl, C57_precision_partial _ hre⟩
  · intro h0
    unfold OwnedMark.expiry
    simp [h0]

example : ∃ d, parseDelegation (Ex.reader [] 60 [5 * second]) "d" = some d ∧ |d.iat - Ex.t0| < 2000 ∧
    ∃ e, d.exp = some e ∧ |e - (Ex.t0 + 5 * second)| < 2000 := by
  obtain ⟨d, h1, _, _, _, h2, h3, _⟩ := C41_lifetime_partial (Ex.owner 60) (Ex.reader [] 60 [5 * second]) Ex.sig [8] Ex.t0 "tm" "https://tmi"
    [5 * second] "d" ⟨"tm", 60, "", []⟩ rfl rfl (by intro jwt hj; exact ⟨8, by cases hj; rfl, rfl⟩)
    (by simp [AMap.WF, AMap.keys]) (by simp [AMap.keys]) (5 * second) (.inl ⟨_, rfl⟩) (by unfold InRange; decide)
    (by unfold InRange; decide)
  exact ⟨d, h1, h2, h3 (by decide)⟩

/-- **C41 fails** for a mark without configured lifetime: the caller asks for a delegation of one hour and gets one that never
expires. -/
theorem C41_custom_lifetime_refuted : ∃ d, (Ex.owner 0).delegate Ex.t0 "tm" "https://tmi" [3600 * second] = some "d" ∧
    parseDelegation (Ex.reader [] 0 [3600 * second]) "d" = some d ∧ d.exp = none := ⟨_, rfl, rfl, rfl⟩

end Oidfed
