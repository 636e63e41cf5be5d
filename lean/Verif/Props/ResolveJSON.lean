import Verif.Spec.ResolveJSON
import Verif.Props.Publish
/-!
# Resolve responses through the wire: C113
-/

namespace Oidfed
open Spec

theorem rawJwts_ok {P : String → Option Jws} : ∀ {l : List (Option PJwt)}, (∀ m ∈ l, ∃ x, m = some x ∧ P x.raw = some x.msg) →
    ∃ raws ms, rawJwts l = .ok raws ∧ parseJwts P raws = some ms ∧ ms.map some = l := by
  intro l
  induction l with
  | nil => intro _; exact ⟨[], [], rfl, rfl, rfl⟩
  | cons a l ih =>
    intro h
    obtain ⟨x, rfl, hx⟩ := h a List.mem_cons_self
    obtain ⟨raws, ms, h1, h2, h3⟩ := ih (fun m hm => h m (List.mem_cons_of_mem _ hm))
    refine ⟨x.raw :: raws, x :: ms, ?_, ?_, ?_⟩
    · simp only [rawJwts, h1]
    · simp only [parseJwts, parseJwt, hx, h2, Option.map_some]
    · rw [List.map_cons, h3]

theorem chainTexts_strs (l : List String) : chainTexts (some (.arr (l.map .str))) = l := by
  simp only [chainTexts, decStrings_strs, Option.getD_some]

theorem resp_field {P : String → Option Jws} {opq : Opaque} (hq : ∀ v w, opq .map v = some w → ∃ l, w = .obj l) {r : RResp} (hr : ResponseOk P opq r)
    {raws : List String} {ms : List PJwt} (hm : parseJwts P raws = some ms) {t : String} (ht : t ∈ resolvePayloadTags) {v : JV}
    (hv : r.payload.fields raws t = some v) : respDec P opq t none v = some (some v) := by
  simp only [resolvePayloadTags, List.mem_cons, List.not_mem_nil, or_false] at ht
  rcases ht with rfl | rfl | rfl
  · obtain ⟨m, h1, rfl⟩ := Option.map_eq_some_iff.mp (show r.payload.metadata.map metadataJV = some v from hv)
    obtain ⟨m', h2, _⟩ := decMetadata_metadata opq hq m (hr.metadata m h1).1 (hr.metadata m h1).2
    exact keepInto_some (join := joinKnown (EType.all.map EType.tag)) (ok := fun v => (decMetadata opq v).isSome) (v := metadataJV m) (by simp [metadataJV]) (by simp only [h2]; rfl)
  · have hv' : omitList markInfoJV r.payload.marks = some v := hv
    cases hc : r.payload.marks with
    | none => rw [hc] at hv'; cases hv'
    | some l =>
      rw [hc] at hv'
      simp only [omitList] at hv'
      split at hv'
      · cases hv'
      · cases hv'
        obtain ⟨a, h1, _⟩ := list_roundtrip (R := SameInfo) (f := decInfo) (g := markInfoJV) (l := l)
          (fun i hi => decInfo_info i (hr.marks i (by rw [hc]; exact hi)))
        exact keepIf_some (ok := fun v => (decInfos v).isSome) (v := .arr (l.map markInfoJV)) (by simp) (by simp only [decInfos, h1]; rfl)
  · have hv' : omitStrs (some raws) = some v := hv
    simp only [omitStrs] at hv'
    split at hv'
    · cases hv'
    · cases hv'
      show chainDec P none (.arr (raws.map .str)) = _
      simp only [chainDec, decStrings_strs, hm, Option.isSome_some, if_true, chainTexts, List.nil_append]
      rfl

theorem additional_get (r : ResolveResp) : lastMember r.additional "iss" = some (.str r.iss) ∧ lastMember r.additional "sub" = some (.str r.sub) ∧
    lastMember r.additional "iat" = some (.num r.iat) ∧ lastMember r.additional "exp" = some (.num r.exp) ∧
    lastMember r.additional "aud" = if r.aud = "" then none else some (.str r.aud) := by
  unfold ResolveResp.additional
  by_cases h : r.aud = "" <;> simp [lastMember, h]

/-- What is written can be read. -/
theorem response_read {P : String → Option Jws} {opq : Opaque} (hq : ∀ v w, opq .map v = some w → ∃ l, w = .obj l) {r : RResp} (hr : ResponseOk P opq r) :
    ∃ l, r.write = .ok l ∧ ∃ o, ResolveResp.unmarshal (respDec P opq) l = some o ∧ SameResponse r (RRPayload.ofStruct P opq o.payload) := by
  obtain ⟨raws, ms, h1, h2, h3⟩ := rawJwts_ok hr.chain
  have hlen : raws = [] → r.payload.chain.getD [] = [] := by
    intro h
    rw [h] at h2
    cases h2
    rw [← h3]; rfl
  let R : ResolveResp := ⟨r.iss, r.sub, marshalTime r.iat, marshalTime r.exp, r.aud, ⟨r.payload.fields raws, r.payload.extra⟩⟩
  obtain ⟨l, hl⟩ : ∃ l, R.marshal = some l := by
    unfold ResolveResp.marshal
    split
    · rename_i hm
      exfalso
      have hmem : members resolvePayloadTags R.payload = [] := by
        have := (sortMembers_perm (members resolvePayloadTags R.payload)).length_eq
        unfold marshalObj at hm
        rw [hm] at this
        exact List.length_eq_zero_iff.mp this.symm
      unfold members at hmem
      have he : r.payload.extra = [] := (List.append_eq_nil_iff.mp hmem).2
      have hk := (List.append_eq_nil_iff.mp hmem).1
      have hnone : ∀ t ∈ resolvePayloadTags, r.payload.fields raws t = none := by
        intro t ht
        cases hf : r.payload.fields raws t with
        | none => rfl
        | some v =>
          exfalso
          have : (t, v) ∈ (resolvePayloadTags.filterMap (fun t => (R.payload.known t).map (fun v => (t, v)))).filter (fun kv => !(R.payload.extra.keys.contains kv.1)) := by
            rw [List.mem_filter]
            refine ⟨List.mem_filterMap.mpr ⟨t, ht, ?_⟩, ?_⟩
            · show (r.payload.fields raws t).map _ = _
              rw [hf]; rfl
            · show (!(AMap.keys r.payload.extra).contains t) = true
              rw [he]; rfl
          rw [hk] at this
          cases this
      rcases hr.something with h | h | h | h
      · have := hnone "metadata" (by decide)
        exact h (Option.map_eq_none_iff.mp (show r.payload.metadata.map metadataJV = none from this))
      · have : omitList markInfoJV r.payload.marks = none := hnone "trust_marks" (by decide)
        apply h
        cases hc : r.payload.marks with
        | none => rfl
        | some l =>
          rw [hc] at this
          simp only [omitList] at this
          split at this
          · rename_i hl; rw [List.isEmpty_iff.mp hl]; rfl
          · cases this
      · have : omitStrs (some raws) = none := hnone "trust_chain" (by decide)
        simp only [omitStrs] at this
        split at this
        · rename_i hl; exact h (hlen (List.isEmpty_iff.mp hl))
        · cases this
      · exact h he
    · exact ⟨_, rfl⟩
  refine ⟨l, ?_, ?_⟩
  · unfold RResp.write
    rw [h1]
    show (match R.marshal with | none => _ | some l => _) = _
    rw [hl]
  obtain ⟨hn, hg⟩ := response_get hr.extra.1 hl
  have hadd : ∀ k, k ∉ responseClaims → lastMember R.additional k = none := by
    intro k hk
    simp only [responseClaims, List.mem_cons, List.not_mem_nil, or_false, not_or] at hk
    obtain ⟨a, b, c, d, e⟩ := hk
    unfold ResolveResp.additional
    by_cases h : R.aud = "" <;> simp [lastMember, h, Ne.symm a, Ne.symm b, Ne.symm c, Ne.symm d, Ne.symm e]
  have hdis : ∀ t ∈ resolvePayloadTags, AMap.get r.payload.extra t = none := by
    intro t ht
    rw [jget_none_iff]
    intro hm
    exact hr.extra.2 t hm t ht rfl
  have htags : ∀ t ∈ resolvePayloadTags, t ∉ responseClaims := by decide
  have hclaims : ∀ t ∈ responseClaims, fieldFor resolvePayloadTags t = none := by decide
  have hget : ∀ t ∈ resolvePayloadTags, AMap.get l t = r.payload.fields raws t := by
    intro t ht
    rw [hg, show AMap.get R.payload.extra t = none from hdis t ht, hadd t (htags t ht), if_pos ht]
    rfl
  have hdec : decodeKnown resolvePayloadTags (respDec P opq) l (fun _ => none) = some (r.payload.fields raws) := by
    refine decodeKnown_as hn ?_ ?_
    · intro kv hkv
      have h4 := jget_of_mem hn hkv
      by_cases hk : kv.1 ∈ resolvePayloadTags
      · left
        rw [hget _ hk] at h4
        exact ⟨hk, by rw [h4]; exact resp_field hq hr h2 hk h4⟩
      · right
        by_cases hc : kv.1 ∈ responseClaims
        · exact hclaims _ hc
        · rw [hg, hadd _ hc, if_neg hk, Option.or_none, Option.or_none] at h4
          apply fieldFor_none
          exact hr.extra.2 kv.1 (List.mem_map.mpr ⟨_, jget_mem h4, rfl⟩)
    · intro t ht
      by_cases hk : t ∈ resolvePayloadTags
      · rcases ht with h4 | h4
        · exact absurd hk h4
        · rw [← hget t hk]
          exact (jget_none_iff _ _).mpr h4
      · simp only [resolvePayloadTags, List.mem_cons, List.not_mem_nil, or_false, not_or] at hk
        simp only [RRPayload.fields, hk, if_false]
  have hun : unmarshalObj resolvePayloadTags (respDec P opq) l = some ⟨r.payload.fields raws, (objMap l).filter (fun kv => !(resolvePayloadTags.contains kv.1))⟩ := by
    unfold unmarshalObj
    rw [hdec]
  have hext : ∀ k, k ∉ resolvePayloadTags → AMap.get ((objMap l).filter (fun kv => !(resolvePayloadTags.contains kv.1))) k =
      (AMap.get r.payload.extra k).or (lastMember R.additional k) := by
    intro k hk
    rw [jget_filter (p := fun k => !(resolvePayloadTags.contains k)), objMap_get, lastMember_nodup hn, hg, if_neg hk, Option.or_none]
    simp [hk, R]
  refine ⟨⟨"", "", 0, 0, "", _⟩, by unfold ResolveResp.unmarshal; rw [hun], ?_⟩
  have hown : ∀ k ∈ responseClaims, AMap.get ((objMap l).filter (fun kv => !(resolvePayloadTags.contains kv.1))) k = lastMember R.additional k := by
    intro k hk
    rw [hext k (by intro h; exact htags k h hk), (jget_none_iff _ _).mpr (fun hm => hr.apart k hm hk), Option.none_or]
  constructor
  case metadata =>
    show Option.Rel SameMetadata r.payload.metadata ((r.payload.metadata.map metadataJV).bind (decMetadata opq))
    cases hm : r.payload.metadata with
    | none => exact .none
    | some m =>
      obtain ⟨m', h3, h4, _⟩ := decMetadata_metadata opq hq m (hr.metadata m hm).1 (hr.metadata m hm).2
      rw [Option.map_some, Option.bind_some, h3]
      exact .some h4
  case marks =>
    show SameList SameInfo (r.payload.marks.getD []) (((omitList markInfoJV r.payload.marks).bind decInfos).getD [])
    cases hm : r.payload.marks with
    | none => exact fun n => by simp only [Option.getD_none, omitList, Option.bind_none, List.getElem?_nil]; exact .none
    | some a =>
      simp only [omitList]
      split
      · rename_i ha
        rw [List.isEmpty_iff.mp ha]
        exact fun n => by simp only [Option.getD_some, Option.bind_none, Option.getD_none, List.getElem?_nil]; exact .none
      · obtain ⟨b, h4, h5⟩ := list_roundtrip (R := SameInfo) (f := decInfo) (g := markInfoJV) (l := a)
          (fun i hi => decInfo_info i (hr.marks i (by rw [hm]; exact hi)))
        simp only [Option.bind_some, decInfos, h4, Option.getD_some]
        exact h5
  case chain =>
    show ((omitStrs (some raws)).bind (fun v => (parseJwts P (chainTexts (some v))).map (fun l => l.map some))).getD [] = _
    simp only [omitStrs]
    split
    · rename_i ha
      rw [hlen (List.isEmpty_iff.mp ha)]; rfl
    · simp only [strsJV, Option.bind_some, chainTexts_strs, h2, Option.map_some, Option.getD_some, h3]
  case extra =>
    intro k hk
    show AMap.get ((objMap l).filter (fun kv => !(resolvePayloadTags.contains kv.1))) k = _
    by_cases ht : k ∈ resolvePayloadTags
    · rw [jget_filter (p := fun k => !(resolvePayloadTags.contains k)), hdis k ht]
      simp [ht]
    · rw [hext k ht, hadd k hk, Option.or_none]
  case iss => exact (hown "iss" (by decide)).trans (additional_get R).1
  case sub => exact (hown "sub" (by decide)).trans (additional_get R).2.1
  case iat => exact ⟨.num (marshalTime r.iat), (hown "iat" (by decide)).trans (additional_get R).2.2.1, timeOf_marshal r.iat hr.iat⟩
  case exp => exact ⟨.num (marshalTime r.exp), (hown "exp" (by decide)).trans (additional_get R).2.2.2.1, timeOf_marshal r.exp hr.exp⟩
  case aud => exact (hown "aud" (by decide)).trans (additional_get R).2.2.2.2

theorem readPayload_of_same {N : Numbering} {num : Jws → Nat} {r : RResp} {q : RRPayload} (h : SameResponse r q) : ReadPayload N num r.payload (q.toPayload N num) where
  metadata := by
    have hm := h.metadata
    show Option.Rel _ _ (q.metadata.map _)
    cases ha : r.payload.metadata <;> cases hb : q.metadata <;> rw [ha, hb] at hm <;> cases hm
    · exact .none
    · rename_i e; exact .some (readMetadata_of_same e)
  marks := by
    show List.map _ ((q.marks.getD []).map _) = _
    rw [List.map_map]
    apply List.ext_getElem?
    intro n
    have := h.marks n
    rw [List.getElem?_map, List.getElem?_map]
    revert this
    cases (r.payload.marks.getD [])[n]? <;> cases (q.marks.getD [])[n]? <;> intro this <;> cases this
    · rfl
    · rename_i e; simp only [Option.map_some, Function.comp]; rw [e.type, e.jwt]
  parsed := by
    intro i hi
    obtain ⟨a, _, rfl⟩ := List.mem_map.mp hi
    rfl
  chain := by
    show (q.chain.getD []).map _ = _
    rw [h.chain]

/-- **C113** (part): a resolver that signs its response with the library's `ResolveResponseSigner` is understood: whoever asks it through `SimpleRemoteMetadataResolver`
obtains exactly the metadata, the trust marks and the trust chain of the response, and the additional claims. -/
theorem C113_response_partial (C : Crypto) (X : Reader) (hmap : ∀ v w, X.opq .map v = some w → ∃ l, w = .obj l) (P : String → Option Jws)
    (ser : Jws → String) (hP : ∀ j, P (ser j) = some j) (S : JSigner) (r : RResp) (hr : ResponseOk P X.opq r) (j : Jws) (hj : signResponse C S r = .ok j)
    (status : Nat) (err : String) (hs : status < 400) :
    ∃ q pl, readResponse P X.opq (ser j) = some q ∧ SameResponse r q ∧
      simplePayload (resolveAnswer P X.opq X.N X.num (some ⟨status, err, ser j⟩)) = .ok pl ∧ ReadPayload X.N X.num r.payload pl := by
  obtain ⟨l, h1, o, h2, h3⟩ := response_read hmap hr
  have hj' : j.payload = l ∧ verifyType j "resolve-response+jwt" = true := by
    unfold signResponse at hj
    split at hj
    · cases hj
    · rename_i k hk
      rw [h1] at hj
      simp only [signAs, JSigner.jwt, hk, signWithType] at hj
      split at hj
      · cases hj
      · cases hj
        exact ⟨rfl, rfl⟩
  have hread : readResponse P X.opq (ser j) = some (RRPayload.ofStruct P X.opq o.payload) := by
    unfold readResponse
    rw [hP]
    simp only [hj'.2, if_true, hj'.1, h2, Option.map_some]
  refine ⟨_, _, hread, h3, ?_, readPayload_of_same h3⟩
  unfold resolveAnswer
  simp only
  rw [if_neg (by omega), hread]
  rfl

/-- **C113** (part): if the signer works, such a response is signed. -/
theorem C113_signed_partial (C : Crypto) (S : JSigner) (P : String → Option Jws) (opq : Opaque) (hmap : ∀ v w, opq .map v = some w → ∃ l, w = .obj l)
    (r : RResp) (hr : ResponseOk P opq r) (k : Nat) (hk : S.key = some k) (hs : ∀ typ p, C.sign S.alg k typ (C.thumb (C.pub k)) p ≠ none) :
    ∃ j, signResponse C S r = .ok j := by
  obtain ⟨l, h1, _⟩ := response_read hmap hr
  unfold signResponse
  rw [hk, h1]
  simp only [signAs, JSigner.jwt, hk, signWithType]
  split
  · rename_i h; exact absurd h (hs _ _)
  · exact ⟨_, rfl⟩

/-- **C113** fails for a response that says nothing about the entity: it cannot be signed, although the signer works for everything. -/
theorem C113_empty_refuted : ¬ ∀ (C : Crypto) (S : JSigner) (r : RResp) (k : Nat), S.key = some k →
    (∀ typ p, C.sign S.alg k typ (C.thumb (C.pub k)) p ≠ none) → ∃ j, signResponse C S r = .ok j := by
  intro h
  obtain ⟨j, hj⟩ := h ⟨fun _ _ _ _ => true, fun _ => [], fun _ => true, id, fun _ => "", fun _ _ _ _ _ => some 1⟩ ⟨some 7, "ES512"⟩
    ⟨"https://ta.example", "https://ia.example", 1700000000000000000, 1700086400000000000, "", ⟨none, none, none, []⟩⟩ 7 rfl (by intro _ _ h; cases h)
  cases hj

/-! ## Cases that meet the hypotheses -/

namespace ExR
open ExS ExP

/-- A statement in a trust chain. -/
def jws : Jws := ⟨[("iss", .str "https://ta.example")], [⟨some "entity-statement+jwt", some "k", some "ES512", 1⟩]⟩

/-- A response with metadata, a trust mark, a trust chain and an additional claim. -/
def resp (raw : String) : RResp where
  iss := "https://ta.example"
  sub := "https://ia.example"
  iat := 1700000000123456789
  exp := 1700086400123456789
  aud := ""
  payload := ⟨some meta0, some [⟨"https://tm.example", "ey", [("x", .num 1)]⟩], some [some ⟨raw, jws⟩], [("jti", .str "1")]⟩

theorem resp_ok {P : String → Option Jws} {raw : String} (h : P raw = some jws) : ResponseOk P opq (resp raw) where
  something := .inl (by simp [resp])
  iat := by show |(1700000000123456789 : Int)| ≤ 2 ^ 62; decide
  exp := by show |(1700086400123456789 : Int)| ≤ 2 ^ 62; decide
  chain := by
    intro m hm
    rw [List.mem_singleton.mp (show m ∈ [some ⟨raw, jws⟩] from hm)]
    exact ⟨_, rfl, h⟩
  metadata := by
    intro m h
    cases h
    refine ⟨⟨by simp [AMap.WF, AMap.keys, meta0], by intro k hk; cases hk⟩, ?_⟩
    intro t s hs
    cases t <;> first | (cases hs; exact fed_ok _) | cases hs
  marks := by
    intro i hi
    rw [List.mem_singleton.mp (show i ∈ [_] from hi)]
    exact ⟨by simp [AMap.WF, AMap.keys], show ∀ k ∈ ["x"], ∀ t ∈ infoTags, foldName t ≠ foldName k by decide⟩
  extra := ⟨by simp [AMap.WF, AMap.keys, resp], show ∀ k ∈ ["jti"], ∀ t ∈ resolvePayloadTags, foldName t ≠ foldName k by decide⟩
  apart := show ∀ k ∈ ["jti"], k ∉ responseClaims by decide

/-- The response is signed, sent and read. -/
example (ser : Jws → String) (P : String → Option Jws) (hP : ∀ j, P (ser j) = some j) : ∃ j q pl, signResponse exCrypto S (resp (ser jws)) = .ok j ∧
    readResponse P opq (ser j) = some q ∧ q.chain = some [some ⟨ser jws, jws⟩] ∧ AMap.get q.extra "jti" = some (.str "1") ∧
    simplePayload (resolveAnswer P opq X.N X.num (some ⟨200, "", ser j⟩)) = .ok pl ∧ pl.chain = [some 5] ∧ pl.metadata.isSome = true := by
  have hr := resp_ok (P := P) (hP jws)
  obtain ⟨j, hj⟩ := C113_signed_partial exCrypto S P opq opq_map _ hr 7 rfl (by intro t p h; cases h)
  obtain ⟨q, pl, h1, h2, h3, h4⟩ := C113_response_partial exCrypto X opq_map P ser hP S _ hr j hj 200 "" (by decide)
  have hc := h2.chain
  refine ⟨j, q, pl, hj, h1, ?_, h2.extra "jti" (by decide), h3, h4.chain, ?_⟩
  · cases hq : q.chain with
    | none => rw [hq] at hc; cases hc
    | some l => rw [hq] at hc; exact congrArg some hc
  · have := h4.metadata
    cases hq : pl.metadata with
    | none => rw [hq] at this; cases this
    | some _ => rfl

end ExR

end Oidfed
