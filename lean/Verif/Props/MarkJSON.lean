import Verif.Lemmas.MarkJSON
import Verif.Props.TrustMark
/-!
# C120, C121, C122: what the readers of trust marks see, stored specifications, and what an issuer lists
-/

namespace Oidfed
open Spec

/-! ## C120 -/

/-- The claims used for verification are among those a reader sees. -/
theorem viewMark_parse (R : JWTReader) (jwt : String) (v : MarkView) (h : viewMark R jwt = some v) :
    ∃ m, parseMark R jwt = some m ∧ m.iss = v.iss ∧ m.sub = v.sub ∧ m.type = v.type ∧ m.iat = v.iat ∧ m.exp = v.exp ∧
      m.delegationJWT = v.delegation := by
  unfold viewMark at h
  unfold parseMark
  cases hR : R jwt with
  | none => rw [hR] at h; cases h
  | some c =>
    rw [hR] at h
    simp only at h ⊢
    split at h
    · cases h
    · rename_i ht
      rw [if_neg ht]
      cases ho : unmarshalObj markTags tmDec c.payload with
      | none => rw [ho] at h; cases h
      | some o =>
        rw [ho] at h
        simp only [Option.map_some, Option.some.injEq] at h
        subst h
        exact ⟨_, rfl, rfl, rfl, rfl, rfl, rfl, rfl⟩

/-- **C120** (part): a trust mark issued by the library shows its readers the claims of its specification, and the trust mark object carries the
additional claims if the specification says so. It is missing that this holds also if the names of additional claims are, up to case, those of
claims of a trust mark. -/
theorem C120_mark_partial (I : MarkIssuer) (R : JWTReader) (sig : SigOracle) (keys : List Nat) (now : Time) (type sub : String)
    (custom : List Int) (info : Info) (s : MarkSpec) (hs : I.spec type = some s) (h : I.issue now type sub custom = some info)
    (hS : SignsAs I.sign R sig keys "trust-mark+jwt" (I.payload s now sub custom))
    (hw : s.extra.WF) (hx : ∀ k ∈ s.extra.keys, ∀ t ∈ markTags, Apart t k)
    (l : Int) (hl : Lifetime s.lifetime custom l) (hr : InRange now) (hre : InRange (now + l)) :
    (∃ v, viewMark R info.jwt = some v ∧ ShowsSpec v I.id sub s now l) ∧ s.type = type ∧ info.type = type ∧
      (s.includeExtra = true → SameExtra info.extra s.extra) ∧ (s.includeExtra = false → ∀ k, AMap.get info.extra k = none) := by
  have hty : s.type = type := by
    have := List.find?_some hs
    simpa using this
  unfold MarkIssuer.issue at h
  rw [hs] at h
  simp only at h
  cases hj : I.sign "trust-mark+jwt" (I.payload s now sub custom) with
  | none => rw [hj] at h; cases h
  | some jwt =>
    rw [hj] at h
    simp only [Option.some.injEq] at h
    subst h
    refine ⟨?_, hty, hty, ?_, ?_⟩
    · obtain ⟨raw, h1, _⟩ := hS jwt hj
      obtain ⟨v, hv, v1, v2, v3, v4, v5, v6, v7, v8, v9⟩ :=
        markView_read I.id sub s.type now (s.expiry now custom) s.logo s.ref s.delegationJWT s.extra hw hx
      refine ⟨v, ?_, v1, v2, v3, v6, v7, v8, v9, ?_, ?_, ?_⟩
      · unfold viewMark
        simp only [h1]
        rw [if_neg (by simp)]
        exact hv
      · rw [v4]; exact C57_precision_partial _ hr
      all_goals
        rw [lifetime_iff] at hl
        rw [v5]
        unfold MarkSpec.expiry
        rw [← hl]
        intro h0
      · simp [h0]
      · exact ⟨_, by simp only [ne_eq, h0, not_false_eq_true, if_true, Option.map_some], C57_precision_partial _ hre⟩
    · intro hi k
      simp [hi]
    · intro hi k
      simp only [hi]
      rfl

/-- **C120** (part) for delegations. When they expire is C41. -/
theorem C120_delegation_partial (O : MarkOwner) (R : JWTReader) (sig : SigOracle) (keys : List Nat) (now : Time) (type sub : String)
    (custom : List Int) (jwt : String) (o : OwnedMark) (ho : O.spec type = some o) (h : O.delegate now type sub custom = some jwt)
    (hS : SignsAs O.sign R sig keys "trust-mark-delegation+jwt" (O.payload o now sub custom))
    (hw : o.extra.WF) (hx : ∀ k ∈ o.extra.keys, ∀ t ∈ delegTags, Apart t k) (hr : InRange now) :
    o.id = type ∧ ∃ v, viewDelegation R jwt = some v ∧ ShowsOwned v O.id sub o now := by
  refine ⟨by simpa using List.find?_some ho, ?_⟩
  unfold MarkOwner.delegate at h
  rw [ho] at h
  simp only at h
  obtain ⟨raw, h1, _⟩ := hS _ h
  obtain ⟨v, hv, v1, v2, v3, v4, _, v6, v7⟩ := delegView_read O.id sub o.id now (o.expiry now custom) o.ref o.extra hw hx
  refine ⟨v, ?_, v1, v2, v3, v6, v7, ?_⟩
  · unfold viewDelegation
    simp only [h1]
    rw [if_neg (by simp)]
    exact hv
  · rw [v4]; exact C57_precision_partial _ hr

namespace ExMJ

/-- A spec with a logo, a reference and an additional claim, which is also put into the trust mark object. -/
def spec : MarkSpec := ⟨"tm", 3600 * second, "https://ref", "https://logo", [("level", .str "high")], true, "d"⟩

/-- An issuer that knows it. -/
def issuer : MarkIssuer := newMarkIssuer "https://tmi" Ex.signer [spec]

/-- Reads the mark issued at `t0` for a leaf. -/
def reader : JWTReader := fun s =>
  if s = "m" then some ⟨"trust-mark+jwt", issuer.payload spec Ex.t0 "https://leaf" [], 7⟩ else none

/-- An owned mark with a reference and an additional claim. -/
def owned : OwnedMark := ⟨"tm", 3600 * second, "https://ref", [("note", .bool true)]⟩

def owner : MarkOwner := newMarkOwner "https://owner" Ex.signer [owned]

def ownerReader : JWTReader := fun s =>
  if s = "d" then some ⟨"trust-mark-delegation+jwt", owner.payload owned Ex.t0 "https://tmi" [], 8⟩ else none

end ExMJ

/-- The hypotheses of `C120_mark_partial` are met by this issuer, whose mark shows the logo, the reference and the additional claim. -/
example : ∃ v, viewMark ExMJ.reader "m" = some v ∧ v.logo = "https://logo" ∧ v.ref = "https://ref" ∧
    AMap.get v.extra "level" = some (.str "high") := by
  obtain ⟨⟨v, h1, _, _, _, h2, h3, _, h4, _⟩, _⟩ := C120_mark_partial ExMJ.issuer ExMJ.reader Ex.sig [7] Ex.t0 "tm" "https://leaf" [] _
    ExMJ.spec rfl rfl (by intro jwt hj; exact ⟨7, by cases hj; rfl, rfl⟩) (by simp [AMap.WF, AMap.keys, ExMJ.spec])
    (by simp only [ExMJ.spec, AMap.keys, Apart]; decide) (3600 * second) (.inr ⟨rfl, rfl⟩) (by unfold InRange; decide)
    (by unfold InRange; decide)
  exact ⟨v, h1, h2, h3, h4 "level"⟩

/-- The hypotheses of `C120_delegation_partial` are met. -/
example : ∃ v, viewDelegation ExMJ.ownerReader "d" = some v ∧ v.ref = "https://ref" ∧ AMap.get v.extra "note" = some (.bool true) := by
  obtain ⟨_, v, h1, _, _, _, h2, h3, _⟩ := C120_delegation_partial ExMJ.owner ExMJ.ownerReader Ex.sig [8] Ex.t0 "tm" "https://tmi" [] "d"
    ExMJ.owned rfl rfl (by intro jwt hj; exact ⟨8, by cases hj; rfl, rfl⟩) (by simp [AMap.WF, AMap.keys, ExMJ.owned])
    (by simp only [ExMJ.owned, AMap.keys, Apart]; decide) (by unfold InRange; decide)
  exact ⟨v, h1, h2, h3 "note"⟩

/-- **C120 fails** if an additional claim has the name of a claim of trust marks. A specification can be read from JSON or YAML with a member
`sub`, which is taken as an additional claim; a mark issued to `https://leaf` then shows another subject, and its trust mark object does not
tell. -/
theorem C120_override_refuted : ∃ s info v,
    readSpecJSON [("trust_mark_type", .str "tm"), ("sub", .str "https://other")] = some s ∧
    readSpecYAML (fun _ => "") [("trust_mark_type", .str "tm"), ("sub", .str "https://other")] = some s ∧
    (newMarkIssuer "https://tmi" Ex.signer [s]).issue Ex.t0 "tm" "https://leaf" [] = some info ∧
    viewMark (fun _ => some ⟨"trust-mark+jwt", (newMarkIssuer "https://tmi" Ex.signer [s]).payload s Ex.t0 "https://leaf" [], 7⟩) info.jwt =
      some v ∧ v.sub = "https://other" ∧ info.extra = [] := ⟨_, _, _, rfl, rfl, rfl, rfl, rfl, rfl⟩

/-- **C120 fails** also for names that differ in case: the additional claim `Ref` is shown in place of the reference. -/
theorem C120_case_refuted : ∃ v, viewMark (fun _ => some ⟨"trust-mark+jwt", (newMarkIssuer "https://tmi" Ex.signer []).payload
      ⟨"tm", 0, "", "", [("Ref", .str "x")], false, ""⟩ Ex.t0 "https://leaf" [], 7⟩) "m" = some v ∧ v.ref = "x" ∧
      AMap.get v.extra "Ref" = some (.str "x") := ⟨_, rfl, rfl, rfl⟩

/-! ## C121 -/

/-- **C121** (part), JSON: a specification that is written and read again is the same, if its lifetime is in whole seconds and the names of its
additional claims are, also up to case, not those of its own members. -/
theorem C121_json_partial (s : MarkSpec) (hw : s.extra.WF) (hx : ∀ k ∈ s.extra.keys, ∀ t ∈ specTags, Apart t k)
    (hl : WholeSeconds s.lifetime) : ∃ s', readSpecJSON s.writeJSON = some s' ∧ SameSpec s' s := by
  obtain ⟨o, h1, h2, h3⟩ := obj_roundtrip (tags := specTags) (by decide) specDec s.struct hw hx (spec_unknown s) (specDec_ok s)
  refine ⟨readSpec o, ?_, readSpec_same s o h2 h3 hl⟩
  unfold readSpecJSON MarkSpec.writeJSON
  rw [h1]; rfl

/-- **C121** (part), YAML: here names that differ in case do no harm. -/
theorem C121_yaml_partial (text : JV → String) (s : MarkSpec) (hw : s.extra.WF) (hx : ∀ k ∈ s.extra.keys, k ∉ specTags)
    (hl : WholeSeconds s.lifetime) : ∃ s', readSpecYAML text s.writeYAML = some s' ∧ SameSpec s' s := by
  obtain ⟨o, h1, h2, h3⟩ := yaml_roundtrip (tags := specTags) (by decide) (specYAMLDec text) s.struct hw hx (spec_unknown s)
    (specYAMLDec_ok text s)
  refine ⟨readSpec o, ?_, readSpec_same s o h2 h3 hl⟩
  unfold readSpecYAML MarkSpec.writeYAML
  rw [h1]; rfl

/-- **C121**, consequence: issuers with the same identifier whose specifications for a type are the same sign the same claims. -/
theorem C121_same_marks (I J : MarkIssuer) (a b : MarkSpec) (now : Time) (sub : String) (custom : List Int) (hid : I.id = J.id)
    (ha : a.extra.WF) (hb : b.extra.WF) (h : SameSpec a b) : I.payload a now sub custom = J.payload b now sub custom := by
  obtain ⟨h1, h2, h3, h4, _, h6, h7⟩ := h
  unfold MarkIssuer.payload
  refine marshalObj_congr (by decide) ha hb ?_ h7
  have he : a.expiry now custom = b.expiry now custom := by unfold MarkSpec.expiry; rw [h2]
  simp only [markStruct, hid, h1, h3, h4, h6, he]

/-- The hypotheses of the three theorems are met by a spec with two additional claims. -/
example : ∃ s', readSpecJSON (MarkSpec.writeJSON ⟨"tm", 3600 * second, "r", "l", [("level", .str "high"), ("n", .num 3)], true, "d"⟩) = some s' ∧
    s'.lifetime = 3600 * second ∧ s'.includeExtra = true ∧ AMap.get s'.extra "n" = some (.num 3) := by
  obtain ⟨s', h, _, h2, _, _, h5, _, h7⟩ := C121_json_partial
    ⟨"tm", 3600 * second, "r", "l", [("level", .str "high"), ("n", .num 3)], true, "d"⟩ (by simp [AMap.WF, AMap.keys])
    (by simp only [AMap.keys, Apart]; decide) ⟨3600, rfl, by decide⟩
  exact ⟨s', h, h2, h5, h7 "n"⟩

example : ∃ s', readSpecYAML (fun _ => "?") (MarkSpec.writeYAML ⟨"tm", 60 * second, "r", "l", [("Ref", .str "high")], true, "d"⟩) = some s' ∧
    s'.ref = "r" ∧ AMap.get s'.extra "Ref" = some (.str "high") := by
  obtain ⟨s', h, _, _, h3, _, _, _, h7⟩ := C121_yaml_partial (fun _ => "?")
    ⟨"tm", 60 * second, "r", "l", [("Ref", .str "high")], true, "d"⟩ (by simp [AMap.WF, AMap.keys])
    (by simp only [AMap.keys]; decide) ⟨60, rfl, by decide⟩
  exact ⟨s', h, h3, h7 "Ref"⟩

example : (newMarkIssuer "i" Ex.signer []).payload ⟨"tm", 0, "r", "l", [("a", .null), ("b", .bool true)], true, ""⟩ Ex.t0 "s" [] =
    (newMarkIssuer "i" Ex.signer []).payload ⟨"tm", 0, "r", "l", [("b", .bool true), ("a", .null)], true, ""⟩ Ex.t0 "s" [] :=
  C121_same_marks _ _ _ _ _ _ _ rfl (by simp [AMap.WF, AMap.keys]) (by simp [AMap.WF, AMap.keys])
    ⟨rfl, rfl, rfl, rfl, rfl, rfl, by
      intro k
      by_cases ha : k = "a"
      · subst ha; rfl
      · by_cases hb : k = "b"
        · subst hb; rfl
        · simp [jget_cons, jget_nil, Ne.symm ha, Ne.symm hb]⟩

/-- **C121 fails** for a lifetime with a fraction of a second: one and a half seconds become one, in JSON and in YAML. -/
theorem C121_lifetime_refuted (ref logo delegation : String) (incl : Bool) :
    (∃ s', readSpecJSON (MarkSpec.writeJSON ⟨"tm", 1500000000, ref, logo, [], incl, delegation⟩) = some s' ∧ s'.lifetime = second) ∧
    (∃ s', readSpecYAML (fun _ => "") (MarkSpec.writeYAML ⟨"tm", 1500000000, ref, logo, [], incl, delegation⟩) = some s' ∧
      s'.lifetime = second) := by
  have hd : durationOf (some (.num (marshalDuration 1500000000))) = second := by
    have hf : float64 (marshalDuration 1500000000) = marshalDuration 1500000000 := float64_idem _
    simp only [durationOf, hf]
    exact C57_duration_refuted
  constructor
  · obtain ⟨o, h1, h2, _⟩ := obj_roundtrip (tags := specTags) (by decide) specDec
      (MarkSpec.struct ⟨"tm", 1500000000, ref, logo, [], incl, delegation⟩) (by simp [AMap.WF, AMap.keys, MarkSpec.struct])
      (by simp [AMap.keys, MarkSpec.struct]) (spec_unknown _) (specDec_ok _)
    refine ⟨readSpec o, ?_, ?_⟩
    · unfold readSpecJSON MarkSpec.writeJSON; rw [h1]; rfl
    · simp only [readSpec, h2]; exact hd
  · obtain ⟨o, h1, h2, _⟩ := yaml_roundtrip (tags := specTags) (by decide) (specYAMLDec (fun _ => ""))
      (MarkSpec.struct ⟨"tm", 1500000000, ref, logo, [], incl, delegation⟩) (by simp [AMap.WF, AMap.keys, MarkSpec.struct])
      (by simp [AMap.keys, MarkSpec.struct]) (spec_unknown _) (specYAMLDec_ok _ _)
    refine ⟨readSpec o, ?_, ?_⟩
    · unfold readSpecYAML MarkSpec.writeYAML; rw [h1]; rfl
    · simp only [readSpec, h2]; exact hd

/-- **C121 fails** in JSON for an additional claim whose name differs from that of a member in the case of letters or in having the long s:
it is written after the member and replaces it when read. -/
theorem C121_case_refuted : ∃ s', readSpecJSON (MarkSpec.writeJSON ⟨"tm", 0, "r", "l", [("truſt_mark_type", .str "y")], false, ""⟩) = some s' ∧
    s'.type = "y" := ⟨_, rfl, rfl⟩

/-! ## C122 -/

/-- **C122**: an issuer lists exactly the types it can issue, each once. -/
theorem C122_types (I : MarkIssuer) (hsign : ∀ typ p, I.sign typ p ≠ none) (now : Time) (sub : String) (custom : List Int) :
    (∀ t, t ∈ I.types ↔ ∃ info, I.issue now t sub custom = some info) ∧ I.types.Nodup := by
  refine ⟨?_, nodup_eraseDups _ _ (Nat.le_refl _)⟩
  intro t
  unfold MarkIssuer.types
  rw [List.mem_eraseDups, List.mem_map]
  constructor
  · intro h
    exact C39_known_type_issued I now t sub custom h hsign
  · rintro ⟨info, hi⟩
    refine Classical.byContradiction fun hn => ?_
    rw [C39_unknown_type_refused I now t sub custom (fun s hs he => hn ⟨s, hs, he⟩)] at hi
    cases hi

/-- **C122**: for each type it was given, in the beginning or later, and only for those, an issuer lists it. -/
theorem C122_added (id : ID) (sign : Signer) (specs added : List MarkSpec) (t : String) :
    t ∈ (added.foldl MarkIssuer.add (newMarkIssuer id sign specs)).types ↔ ∃ s ∈ specs ++ added, s.type = t := by
  have hfold : ∀ (I : MarkIssuer), (added.foldl MarkIssuer.add I).specs = added.reverse ++ I.specs := by
    induction added with
    | nil => intro I; rfl
    | cons a as ih => intro I; rw [List.foldl_cons, ih]; simp [MarkIssuer.add]
  unfold MarkIssuer.types
  rw [List.mem_eraseDups, List.mem_map, hfold]
  unfold newMarkIssuer
  constructor
  · rintro ⟨s, h, e⟩; exact ⟨s, by simpa [or_comm] using h, e⟩
  · rintro ⟨s, h, e⟩; exact ⟨s, by simpa [or_comm] using h, e⟩

/-- **C122** for owners: they use the last of the marks they were given for the type, and refuse other types. -/
theorem C122_owner (id : ID) (sign : Signer) (owned added : List OwnedMark) (type : String) (o : OwnedMark) :
    (added.foldl MarkOwner.add (newMarkOwner id sign owned)).spec type = some o ↔ LastOwned (owned ++ added) type o := by
  have hfold : ∀ (O : MarkOwner), (added.foldl MarkOwner.add O).owned = added.reverse ++ O.owned := by
    induction added with
    | nil => intro I; rfl
    | cons a as ih => intro I; rw [List.foldl_cons, ih]; simp [MarkOwner.add]
  unfold MarkOwner.spec
  rw [hfold]
  unfold newMarkOwner
  simp only [← List.reverse_append]
  rw [List.find?_eq_some_iff_append]
  constructor
  · rintro ⟨h1, as, bs, h2, h3⟩
    refine ⟨bs.reverse, as.reverse, ?_, by simpa using h1, ?_⟩
    · have := congrArg List.reverse h2
      simpa using this
    · intro x hx
      simpa using h3 x (by simpa using hx)
  · rintro ⟨pre, post, h1, h2, h3⟩
    refine ⟨by simpa using h2, post.reverse, pre.reverse, by rw [h1]; simp, ?_⟩
    intro x hx
    simpa using h3 x (by simpa using hx)

/-- **C122**: a delegation is made exactly for the types the owner was given. -/
theorem C122_owner_types (O : MarkOwner) (hsign : ∀ typ p, O.sign typ p ≠ none) (now : Time) (type sub : String) (custom : List Int) :
    (∃ jwt, O.delegate now type sub custom = some jwt) ↔ ∃ o ∈ O.owned, o.id = type := by
  unfold MarkOwner.delegate
  cases ho : O.spec type with
  | none =>
    unfold MarkOwner.spec at ho
    rw [List.find?_eq_none] at ho
    simp only [reduceCtorEq, exists_false, false_iff]
    rintro ⟨o, h1, h2⟩
    exact ho o h1 (by simpa using h2)
  | some o =>
    constructor
    · intro _
      exact ⟨o, List.mem_of_find?_eq_some ho, by simpa using List.find?_some ho⟩
    · intro _
      cases hj : O.sign "trust-mark-delegation+jwt" (O.payload o now sub custom) with
      | none => exact absurd hj (hsign _ _)
      | some j => exact ⟨j, hj⟩

/-- **C122**: looking up a trust mark by its type finds the first one of that type, if there is any. -/
theorem C122_find (type : String) (l : List Info) :
    (∀ i, findInfoByID type l = some i ↔ FirstOfType l type i) ∧ (findInfoByID type l = none ↔ ∀ i ∈ l, i.type ≠ type) := by
  have heq : ∀ p : Info → Bool, findInfo p l = l.find? p := by
    intro p
    induction l with
    | nil => rfl
    | cons a l ih =>
      unfold findInfo
      rw [List.find?_cons, ih]
      cases p a <;> rfl
  unfold findInfoByID
  rw [heq]
  constructor
  · intro i
    rw [List.find?_eq_some_iff_append]
    constructor
    · rintro ⟨h1, as, bs, h2, h3⟩
      exact ⟨as, bs, h2, by simpa using h1, fun x hx => by simpa using h3 x hx⟩
    · rintro ⟨as, bs, h2, h1, h3⟩
      exact ⟨by simpa using h1, as, bs, h2, fun x hx => by simpa using h3 x hx⟩
  · rw [List.find?_eq_none]
    simp

/-- Two specs for the same type are listed once; a signer that always works exists. -/
example : (newMarkIssuer "i" Ex.signer [Ex.spec [], ExMJ.spec, ⟨"other", 0, "", "", [], false, ""⟩]).types = ["other", "tm"] ∧
    (∀ typ p, Ex.signer typ p ≠ none) := ⟨rfl, fun typ p => by unfold Ex.signer; split <;> simp⟩

example : findInfoByID "b" [⟨"a", "1", [], none⟩, ⟨"b", "2", [], none⟩, ⟨"b", "3", [], none⟩] = some ⟨"b", "2", [], none⟩ := rfl

example : ∃ jwt, ExMJ.owner.delegate Ex.t0 "tm" "https://tmi" [] = some jwt := ⟨_, rfl⟩

end Oidfed
