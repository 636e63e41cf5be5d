import Verif.Lemmas.JSONObject
/-!
# C51, C52, C55, C56: JSON round trips
-/

namespace Oidfed
open Spec

/-! ## C51 -/

/-- **C51** (part): every list of strings that is not the nil slice is read back as it was written. -/
theorem C51_roundtrip_partial (l : List String) : unmarshalSlice (marshalSlice (some l)) = some (some l) := by
  have hd : ∀ l : List String, decStrings (l.map JV.str) = some l := by
    intro l
    induction l with
    | nil => rfl
    | cons s l ih => simp [decStrings, ih]
  match l with
  | [] => rfl
  | [s] => rfl
  | a :: b :: l => simp [marshalSlice, unmarshalSlice, decStrings, hd]

/-- **C51 fails** for the nil slice: it is written as `null`, which is read as a slice with one empty string. -/
theorem C51_nil_refuted : marshalSlice none = .null ∧ unmarshalSlice (marshalSlice none) = some (some [""]) := ⟨rfl, rfl⟩

/-- What is written is never ambiguous: two different non-nil lists are written differently. -/
theorem C51_injective (a b : List String) (h : marshalSlice (some a) = marshalSlice (some b)) : a = b := by
  have ha := C51_roundtrip_partial a
  rw [h, C51_roundtrip_partial b] at ha
  exact (Option.some.inj (Option.some.inj ha)).symm

example : unmarshalSlice (marshalSlice (some ["a", "b"])) = some (some ["a", "b"]) := rfl
example : unmarshalSlice (.arr [.str "a"]) = some (some ["a"]) := rfl

/-! ## C52 -/

/-- A statement with the claims that are always written. -/
def exStmt (extra : AMap JV) : JStruct where
  known := fun t => match t with
    | "iss" => some (.str "https://ta")
    | "sub" => some (.str "https://leaf")
    | "iat" => some (.num 10)
    | "exp" => some (.num 20)
    | "jwks" => some (.obj [("keys", .arr [])])
    | _ => none
  extra := extra

/-- A decoder for the fields of a statement: names are strings, the rest is taken as it is. -/
def exDec : FieldDec := fun t cur v =>
  if t = "iss" ∨ t = "sub" ∨ t = "aud" then decString cur v else some (some v)

theorem foldChar_letter (c : Char) (h : foldChar c ≠ c) : ∃ l ∈ letters, c ∈ l ∧ foldChar c ∈ l := by
  have key : ∀ n < 26, ∃ l ∈ letters, Char.ofNat (97 + n) ∈ l ∧ foldChar (Char.ofNat (97 + n)) ∈ l := by decide
  by_cases h1 : 97 ≤ c.toNat ∧ c.toNat ≤ 122
  · have := key (c.toNat - 97) (by omega)
    have e : 97 + (c.toNat - 97) = c.toNat := by omega
    rw [e, Char.ofNat_toNat] at this
    exact this
  · by_cases h2 : c.toNat = 0x17F
    · have e : c = '\u017F' := by rw [← Char.ofNat_toNat c, h2]
      subst e
      decide
    · by_cases h3 : c.toNat = 0x212A
      · have e : c = '\u212A' := by rw [← Char.ofNat_toNat c, h3]
        subst e
        decide
      · exact absurd (by unfold foldChar; rw [if_neg h1, if_neg h2, if_neg h3]) h

theorem foldChar_iff (c d : Char) : foldChar c = foldChar d ↔ SameChar c d := by
  have hdis : ∀ l ∈ letters, ∀ l' ∈ letters, ∀ x ∈ l, x ∈ l' → l = l' := by decide
  have hsame : ∀ l ∈ letters, ∀ x ∈ l, ∀ y ∈ l, foldChar x = foldChar y := by decide
  constructor
  · intro h
    by_cases hc : foldChar c = c
    · by_cases hd : foldChar d = d
      · exact .inl (by rw [← hc, h, hd])
      · obtain ⟨l, hl, h1, h2⟩ := foldChar_letter d hd
        rw [← h, hc] at h2
        exact .inr ⟨l, hl, h2, h1⟩
    · obtain ⟨l, hl, h1, h2⟩ := foldChar_letter c hc
      by_cases hd : foldChar d = d
      · rw [h, hd] at h2
        exact .inr ⟨l, hl, h1, h2⟩
      · obtain ⟨l', hl', h1', h2'⟩ := foldChar_letter d hd
        rw [h] at h2
        have := hdis l hl l' hl' _ h2 h2'
        subst this
        exact .inr ⟨l, hl, h1, h1'⟩
  · rintro (rfl | ⟨l, hl, h1, h2⟩)
    · rfl
    · exact hsame l hl c h1 d h2

/-- Names are kept apart exactly if they are not the same but for the form of letters. -/
theorem C52_apart (a b : String) : Apart a b ↔ ¬ SameLetters a.toList b.toList := by
  have key : ∀ x y : List Char, x.map foldChar = y.map foldChar ↔ SameLetters x y := by
    intro x
    induction x with
    | nil =>
      intro y
      cases y with
      | nil => exact ⟨fun _ => .nil, fun _ => rfl⟩
      | cons d y => exact ⟨(fun h => by cases h), (fun h => by cases h)⟩
    | cons c x ih =>
      intro y
      cases y with
      | nil => exact ⟨(fun h => by cases h), (fun h => by cases h)⟩
      | cons d y =>
        simp only [List.map_cons, List.cons.injEq, foldChar_iff, ih]
        exact ⟨fun h => .cons h.1 h.2, fun h => by cases h with | cons h1 h2 => exact ⟨h1, h2⟩⟩
  unfold Apart foldName
  rw [ne_eq, key]

/-- A name with the Kelvin sign is read as one with a k. -/
example : ¬ Apart "jwks" "jw\u212As" ∧ SameLetters "jwks".toList "jw\u212As".toList := by
  have h : ¬ Apart "jwks" "jw\u212As" := by unfold Apart; decide
  exact ⟨h, Classical.byContradiction fun hn => h ((C52_apart _ _).mpr hn)⟩

/-- **C52** (part): a structure whose additional claims have names that differ from all known names also if case is ignored is read back
as it was written, provided each known claim's value is read back by the decoder of its own field. -/
theorem C52_roundtrip_partial (tags : List String) (hnd : tags.Nodup) (dec : FieldDec) (o : JStruct) (he : o.extra.WF)
    (hapart : ∀ k ∈ o.extra.keys, ∀ t ∈ tags, Apart t k)
    (hknown : ∀ t, t ∉ tags → o.known t = none)
    (hdec : ∀ t ∈ tags, ∀ v, o.known t = some v → dec t none v = some (some v)) :
    ∃ o', unmarshalObj tags dec (marshalObj tags o) = some o' ∧ o'.known = o.known ∧
      ∀ k, AMap.get o'.extra k = AMap.get o.extra k :=
  obj_roundtrip hnd dec o he hapart hknown hdec

/-- The hypotheses are met by a statement with two additional claims. -/
example : ∃ o', unmarshalObj entityStatementTags exDec (marshalObj entityStatementTags
      (exStmt [("logo", .str "x"), ("contacts", .arr [.str "a"])])) = some o' ∧
      AMap.get o'.extra "logo" = some (.str "x") := by
  obtain ⟨o', h1, _, h3⟩ := C52_roundtrip_partial entityStatementTags (by decide) exDec
    (exStmt [("logo", .str "x"), ("contacts", .arr [.str "a"])])
    (by simp [AMap.WF, AMap.keys, exStmt]) (by simp only [exStmt, AMap.keys, Apart]; decide)
    (by
      intro t ht
      simp only [exStmt]
      split <;> first | rfl | (exfalso; revert ht; decide))
    (by
      intro t _ v hv
      simp only [exStmt] at hv
      split at hv <;> cases hv <;> rfl)
  exact ⟨o', h1, by rw [h3]; rfl⟩

/-- **C52 fails** for additional claims that differ from a known name only in case: an additional claim `Aud`, different from all
known names, is read back as the audience, which the statement did not have. -/
theorem C52_case_refuted :
    (∀ k ∈ (exStmt [("Aud", .str "x")]).extra.keys, k ∉ entityStatementTags) ∧
    (exStmt [("Aud", .str "x")]).known "aud" = none ∧
    ∃ o', unmarshalObj entityStatementTags exDec (marshalObj entityStatementTags (exStmt [("Aud", .str "x")])) = some o' ∧
      o'.known "aud" = some (.str "x") :=
  ⟨by decide, rfl, _, rfl, rfl⟩

/-- **C52 fails**: an additional claim can hide a known one. Here a claim named with a long s is written after the issuer, and on reading
replaces it. -/
theorem C52_hidden_issuer_refuted :
    (∀ k ∈ (exStmt [("iſs", .str "https://evil")]).extra.keys, k ∉ entityStatementTags) ∧
    ∃ o', unmarshalObj entityStatementTags exDec (marshalObj entityStatementTags (exStmt [("iſs", .str "https://evil")])) = some o' ∧
      (exStmt [("iſs", .str "https://evil")]).known "iss" = some (.str "https://ta") ∧
      o'.known "iss" = some (.str "https://evil") :=
  ⟨by decide, _, rfl, rfl, rfl⟩

/-- **C52**, reading: whatever object is read, every claim whose name is not a known one is kept with the value the object gives it (the
last one, if the object has several members of that name), and nothing else is in the additional claims. -/
theorem C52_unknown_kept (tags : List String) (dec : FieldDec) (l : JObj) (o : JStruct) (h : unmarshalObj tags dec l = some o)
    (k : String) (v : JV) : AMap.get o.extra k = some v ↔ k ∉ tags ∧ LastMember l k v := by
  rw [(unmarshal_some h).2, jget_filter (p := fun k => !(tags.contains k)), objMap_get, ← lastMember_iff]
  by_cases hk : k ∈ tags <;> simp [hk]

example : ∃ o, unmarshalObj entityStatementTags exDec [("iss", .str "a"), ("x", .num 1), ("x", .num 2)] = some o ∧
    AMap.get o.extra "x" = some (.num 2) := ⟨_, rfl, rfl⟩

/-- **C52**, writing: if no additional claim has a known name, every claim of the structure, known or additional, is written
exactly once and with its value, and nothing else is written. -/
theorem C52_written (tags : List String) (hnd : tags.Nodup) (o : JStruct) (he : o.extra.WF)
    (hne : ∀ k ∈ o.extra.keys, k ∉ tags) :
    (∀ t ∈ tags, ∀ v, o.known t = some v → OnlyMember (marshalObj tags o) t v) ∧
    (∀ k v, AMap.get o.extra k = some v → OnlyMember (marshalObj tags o) k v) ∧
    ∀ kv ∈ marshalObj tags o, (kv.1 ∈ tags ∧ o.known kv.1 = some kv.2) ∨ AMap.get o.extra kv.1 = some kv.2 := by
  have hn := marshalObj_nodup hnd he
  have hg := marshalObj_get hnd he
  refine ⟨?_, ?_, ?_⟩
  · intro t ht v hv
    apply onlyMember_of hn
    have : AMap.get o.extra t = none := (jget_none_iff _ _).mpr (fun hm => hne t hm ht)
    simp [hg, this, ht, hv]
  · intro k v hv
    apply onlyMember_of hn
    simp [hg, hv]
  · intro kv hkv
    have h1 := jget_of_mem hn hkv
    rw [hg] at h1
    cases hx : AMap.get o.extra kv.1 with
    | some v => right; rw [hx] at h1; simpa using h1
    | none =>
      left
      rw [hx, Option.none_or] at h1
      split at h1
      · exact ⟨by assumption, h1⟩
      · cases h1

example : OnlyMember (marshalObj entityStatementTags (exStmt [("logo", .str "x")])) "iss" (.str "https://ta") :=
  (C52_written _ (by decide) _ (by simp [AMap.WF, AMap.keys, exStmt]) (by decide)).1 _ (by decide) _ rfl

/-- **C52 fails** if an additional claim has a known name: the additional claim is written in its place. -/
theorem C52_override_refuted (tags : List String) (hnd : tags.Nodup) (o : JStruct) (he : o.extra.WF) (k : String) (v : JV)
    (hv : AMap.get o.extra k = some v) : OnlyMember (marshalObj tags o) k v := by
  apply onlyMember_of (marshalObj_nodup hnd he)
  rw [marshalObj_get hnd he, hv]
  rfl

example : OnlyMember (marshalObj entityStatementTags (exStmt [("sub", .str "https://evil")])) "sub" (.str "https://evil") :=
  C52_override_refuted _ (by decide) _ (by simp [AMap.WF, AMap.keys, exStmt]) _ _ rfl

/-! ## C55 -/

/-- A resolve response with metadata. -/
def exResp : ResolveResp where
  iss := "https://ta"
  sub := "https://leaf"
  iat := 10
  exp := 20
  aud := ""
  payload := ⟨fun t => if t = "metadata" then some (.obj []) else none, [("x", .num 1)]⟩

/-- **C55 fails** for every response: whatever is read, the issuer, subject and times of the result are zero values. -/
theorem C55_claims_lost_refuted (dec : FieldDec) (l : JObj) (r : ResolveResp) (h : ResolveResp.unmarshal dec l = some r) :
    r.iss = "" ∧ r.sub = "" ∧ r.iat = 0 ∧ r.exp = 0 ∧ r.aud = "" := by
  unfold ResolveResp.unmarshal at h
  split at h
  · cases h
  · cases h; exact ⟨rfl, rfl, rfl, rfl, rfl⟩

/-- … although the response was written with others. -/
theorem C55_refuted : ∃ l r, exResp.marshal = some l ∧ ResolveResp.unmarshal exDec l = some r ∧ exResp.iss = "https://ta" ∧ r.iss = "" :=
  ⟨_, _, rfl, rfl, rfl, rfl⟩

/-- **C55 fails**: a response whose payload has no claim at all cannot be written. -/
theorem C55_empty_payload_refuted (r : ResolveResp) (hk : ∀ t, r.payload.known t = none) (he : r.payload.extra = []) :
    r.marshal = none := by
  have : members resolvePayloadTags r.payload = [] := by
    unfold members
    rw [he]
    simp [resolvePayloadTags, hk]
  unfold ResolveResp.marshal marshalObj
  rw [this]
  rfl

example : ResolveResp.marshal ⟨"a", "b", 1, 2, "", ⟨fun _ => none, []⟩⟩ = none :=
  C55_empty_payload_refuted _ (fun _ => rfl) rfl

/-- **C55** (part): the claims of a response are not lost on the wire. If the additional claims of the payload do not use their
names, the issuer, subject, times and audience are found among the additional claims of what is read, the audience only if there is
one. -/
theorem C55_in_extra_partial (dec : FieldDec) (r r' : ResolveResp) (l : JObj) (he : r.payload.extra.WF)
    (hne : ∀ k ∈ r.payload.extra.keys, k ∉ ["iss", "sub", "iat", "exp", "aud"])
    (hm : r.marshal = some l) (hu : ResolveResp.unmarshal dec l = some r') :
    AMap.get r'.payload.extra "iss" = some (.str r.iss) ∧ AMap.get r'.payload.extra "sub" = some (.str r.sub) ∧
    AMap.get r'.payload.extra "iat" = some (.num r.iat) ∧ AMap.get r'.payload.extra "exp" = some (.num r.exp) ∧
    AMap.get r'.payload.extra "aud" = if r.aud = "" then none else some (.str r.aud) := by
  obtain ⟨hn, hg⟩ := response_get he hm
  unfold ResolveResp.unmarshal at hu
  split at hu
  · cases hu
  · rename_i p hp
    cases hu
    have key : ∀ k, k ∈ ["iss", "sub", "iat", "exp", "aud"] → AMap.get p.extra k = lastMember r.additional k := by
      intro k hk
      have hx : AMap.get r.payload.extra k = none := (jget_none_iff _ _).mpr (fun hm => hne k hm hk)
      have : k ∉ resolvePayloadTags := by
        intro hc
        simp only [List.mem_cons, List.not_mem_nil, or_false] at hk
        rcases hk with rfl | rfl | rfl | rfl | rfl <;> revert hc <;> decide
      rw [(unmarshal_some hp).2, jget_filter (p := fun k => !(resolvePayloadTags.contains k)), objMap_get, lastMember_nodup hn, hg, hx]
      simp [this]
    rw [key "iss" (by simp), key "sub" (by simp), key "iat" (by simp), key "exp" (by simp), key "aud" (by simp)]
    unfold ResolveResp.additional
    by_cases h : r.aud = "" <;> simp [lastMember, h]

example : ∃ l r, exResp.marshal = some l ∧ ResolveResp.unmarshal exDec l = some r ∧
    AMap.get r.payload.extra "iss" = some (.str "https://ta") := ⟨_, _, rfl, rfl, rfl⟩

/-! ## C56 -/

/-- Policies for one known and one unknown entity type. -/
def exPols (extra : AMap JV) : JStruct where
  known := fun t => if t = "openid_provider" then some (.obj [("scope", .obj [("essential", .bool true)])]) else none
  extra := extra

/-- **C56 fails** on reading for every object: a metadata policy with a member that is not a known entity type is refused. -/
theorem C56_unknown_type_refuted (dec : FieldDec) (l : JObj) (kv : String × JV) (hm : kv ∈ l) (hk : kv.1 ∉ policyTags) :
    unmarshalPolicies dec l = none := by
  unfold unmarshalPolicies
  split
  · rfl
  · rename_i o ho
    rw [if_neg]
    rw [(unmarshal_some ho).2]
    intro he
    rw [List.isEmpty_iff] at he
    have h1 : AMap.get ((objMap l).filter (fun kv => !(policyTags.contains kv.1))) kv.1 = none := by rw [he]; rfl
    rw [jget_filter (p := fun k => !(policyTags.contains k)), objMap_get] at h1
    simp only [List.contains_eq_mem, hk, decide_false, Bool.not_false, if_true] at h1
    rw [lastMember_none_iff] at h1
    exact h1 (List.mem_map.mpr ⟨kv, hm, rfl⟩)

/-- **C56 fails** on the round trip: no value with a policy for an unknown entity type is read back. -/
theorem C56_roundtrip_refuted (dec : FieldDec) (o : JStruct) (he : o.extra.WF) (k : String) (v : JV)
    (hv : AMap.get o.extra k = some v) (hk : k ∉ policyTags) :
    unmarshalPolicies dec (marshalObj policyTags o) = none := by
  apply C56_unknown_type_refuted dec _ (k, v) _ hk
  apply jget_mem
  rw [marshalObj_get (by decide) he, hv]
  rfl

example : unmarshalPolicies exDec (marshalObj policyTags (exPols [("my_type", .obj [("scope", .obj [("value", .str "x")])])])) = none :=
  C56_roundtrip_refuted _ _ (by simp [AMap.WF, AMap.keys, exPols]) "my_type" _ rfl (by decide)

/-- **C56** (part): policies for known entity types only are read back as they were written, provided each policy is. -/
theorem C56_known_partial (dec : FieldDec) (o : JStruct) (he : o.extra = [])
    (hknown : ∀ t, t ∉ policyTags → o.known t = none)
    (hdec : ∀ t ∈ policyTags, ∀ v, o.known t = some v → dec t none v = some (some v)) :
    unmarshalPolicies dec (marshalObj policyTags o) = some o := by
  obtain ⟨o', h1, h2, h3⟩ := obj_roundtrip (tags := policyTags) (by decide) dec o (by rw [he]; simp [AMap.WF, AMap.keys])
    (by rw [he]; simp [AMap.keys]) hknown hdec
  have hx : o'.extra = [] := by
    cases h : o'.extra with
    | nil => rfl
    | cons a l =>
      have := h3 a.1
      rw [h, he, show a = (a.1, a.2) from rfl, jget_cons] at this
      simp [jget_nil] at this
  unfold unmarshalPolicies
  rw [h1]
  simp only [hx, List.isEmpty_nil, if_true]
  obtain ⟨k', e'⟩ := o'
  obtain ⟨k, e⟩ := o
  simp only at h2 hx he
  subst h2 hx he
  rfl

example : unmarshalPolicies exDec (marshalObj policyTags (exPols [])) = some (exPols []) :=
  C56_known_partial _ _ rfl
    (by
      intro t ht
      simp only [exPols]
      rw [if_neg]
      intro e; subst e; revert ht; decide)
    (by
      intro t _ v hv
      simp only [exPols] at hv
      split at hv
      · rename_i e; subst e; cases hv; rfl
      · cases hv)

end Oidfed
