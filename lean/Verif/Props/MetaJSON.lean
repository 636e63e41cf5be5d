import Verif.Model.StmtJSON
import Verif.Lemmas.MetaJSON
/-!
# Properties of metadata as JSON: C89, C90, C91, C92
-/

namespace Oidfed
open Spec

/-! ## C92 -/

set_option maxRecDepth 10000 in
/-- The tables have no repeated names or tags. -/
theorem tables_ok (t : EType) : TableOk (metaFields t) := by
  cases t <;> exact ⟨by decide, by decide, by decide⟩

/-- **C92**: each metadata struct and the pointer struct it is read through have the same fields, under the same names and of the same type. -/
theorem C92_same_fields (t : EType) : metaPtrFields t = metaFields t := by cases t <;> rfl

/-- Characters that are not letters other than lower case ones. -/
def plainChar (c : Char) : Bool := (decide (97 ≤ c.toNat) && decide (c.toNat ≤ 122)) || c == '_'

theorem foldChar_inj {c d : Char} (hc : plainChar c = true) (hd : plainChar d = true) (h : foldChar c = foldChar d) : c = d := by
  have key : ∀ c : Char, plainChar c = true → c.toNat = (if foldChar c = '_' then 95 else (foldChar c).toNat + 32) := by
    intro c hc
    simp only [plainChar, Bool.or_eq_true, Bool.and_eq_true, decide_eq_true_eq, beq_iff_eq] at hc
    rcases hc with hc | rfl
    · have h1 : foldChar c = Char.ofNat (c.toNat - 32) := by unfold foldChar; rw [if_pos hc]
      have h2 : (Char.ofNat (c.toNat - 32)).toNat = c.toNat - 32 := by
        have hv : (c.toNat - 32).isValidChar := .inl (by omega)
        unfold Char.ofNat
        rw [dif_pos hv]
        rfl
      rw [h1]
      split
      · rename_i e
        have : (Char.ofNat (c.toNat - 32)).toNat = 95 := by rw [e]; rfl
        omega
      · omega
    · rfl
  have := key c hc
  rw [h, ← key d hd] at this
  exact Char.toNat_inj.mp this

theorem foldName_inj {s u : String} (hs : s.toList.all plainChar = true) (hu : u.toList.all plainChar = true)
    (h : foldName s = foldName u) : s = u := by
  have key : ∀ a b : List Char, a.all plainChar = true → b.all plainChar = true → a.map foldChar = b.map foldChar → a = b := by
    intro a
    induction a with
    | nil => intro b _ _ h; cases b with
      | nil => rfl
      | cons _ _ => cases h
    | cons x a ih =>
      intro b ha hb h
      cases b with
      | nil => cases h
      | cons y b =>
        simp only [List.all_cons, Bool.and_eq_true] at ha hb
        simp only [List.map_cons, List.cons.injEq] at h
        rw [foldChar_inj ha.1 hb.1 h.1, ih b ha.2 hb.2 h.2]
  exact String.toList_inj.mp (key _ _ hs hu h)

set_option maxRecDepth 10000 in
theorem tags_plain (t : EType) : ∀ f ∈ metaFields t, f.tag.toList.all plainChar = true := by
  cases t <;> decide

/-- **C92**: a claim name addresses at most one field of a metadata struct, even if upper and lower case are not told apart, and no two fields
share a Go name. -/
theorem C92_one_field (t : EType) : ∀ f ∈ metaFields t, ∀ g ∈ metaFields t,
    (foldName f.tag = foldName g.tag → f = g) ∧ (f.name = g.name → f = g) := by
  intro f hf g hg
  constructor
  · intro h
    have e := foldName_inj (tags_plain t f hf) (tags_plain t g hg) h
    have h1 := find_by MField.tag (tables_ok t).tags hf
    rw [e, find_by MField.tag (tables_ok t).tags hg] at h1
    exact (Option.some.inj h1).symm
  · intro e
    have h1 := find_by MField.name (tables_ok t).names hf
    rw [e, find_by MField.name (tables_ok t).names hg] at h1
    exact (Option.some.inj h1).symm

/-- The struct of an OP has 80 such fields. -/
example : (metaFields .op).length = 80 ∧ ⟨"Issuer", "issuer", .str, false⟩ ∈ metaFields .op := by
  exact ⟨rfl, by simp [metaFields, opFields]⟩

/-! ## C89 -/

/-- A decoder for maps and key sets that takes them as they are. -/
def exOpq : Opaque := fun _ v => some v

/-- Reading a metadata object of the given entity type. -/
abbrev readEntity (opq : Opaque) (t : EType) (l : JObj) : Option MStruct := readMeta opq (metaFields t) (metaPtrFields t) l

/-- **C89** (part, values): if no member name is repeated or spelled in another case, every attribute holds what was stated for it, and the zero value of its type if nothing was stated. -/
theorem C89_values_partial (opq : Opaque) (t : EType) (l : JObj) (m : MStruct) (hu : UniqueNames l) (hx : ExactNames (metaFields t) l)
    (h : readEntity opq t l = some m) (f : MField) (hf : f ∈ metaFields t) :
    (∀ v, (f.tag, v) ∈ l → v ≠ .null → ∃ w, m.val f.name = some w ∧ Reads opq f.kind v w) ∧
    (¬ States l f.tag → m.val f.name = f.kind.zero) := by
  unfold readEntity at h
  rw [C92_same_fields] at h
  obtain ⟨o, rfl, h1, h2, _⟩ := read_spec (tables_ok t) hu hx h
  rw [fromPtrs_val (tables_ok t) o hf]
  constructor
  · intro v hv hne
    rcases decMeta_spec (h1 f hf v hv) with ⟨e, _⟩ | ⟨_, w, e, hw⟩
    · exact absurd e hne
    · exact ⟨w, by rw [e]; rfl, hw⟩
  · intro hs
    have : o.known f.tag = none := by
      by_cases hm : f.tag ∈ l.map Prod.fst
      · obtain ⟨x, hx1, hx2⟩ := List.mem_map.mp hm
        have hv : (f.tag, x.2) ∈ l := by rw [← hx2]; exact hx1
        rcases decMeta_spec (h1 f hf _ hv) with ⟨_, e⟩ | ⟨hne, _⟩
        · exact e
        · exact absurd ⟨_, hv, hne⟩ hs
      · exact h2 f hf hm
    rw [this]; rfl

/-- **C89** (part): if no additional claim has the Go name of a field, an attribute counts as present exactly if it was stated. -/
theorem C89_present_partial (opq : Opaque) (t : EType) (l : JObj) (m : MStruct) (hu : UniqueNames l) (hx : ExactNames (metaFields t) l)
    (hg : NoGoNames (metaFields t) l) (h : readEntity opq t l = some m) (f : MField) (hf : f ∈ metaFields t) :
    f.name ∈ m.wasSet ↔ States l f.tag := by
  unfold readEntity at h
  rw [C92_same_fields] at h
  obtain ⟨o, rfl, h1, h2, h3⟩ := read_spec (tables_ok t) hu hx h
  rw [fromPtrs_set (tables_ok t) o hf]
  constructor
  · rintro (hs | hs)
    · by_cases hm : f.tag ∈ l.map Prod.fst
      · obtain ⟨x, hx1, hx2⟩ := List.mem_map.mp hm
        have hv : (f.tag, x.2) ∈ l := by rw [← hx2]; exact hx1
        rcases decMeta_spec (h1 f hf _ hv) with ⟨_, e⟩ | ⟨hne, _⟩
        · rw [e] at hs; cases hs
        · exact ⟨_, hv, hne⟩
      · rw [h2 f hf hm] at hs; cases hs
    · rw [h3] at hs
      obtain ⟨hl, _⟩ := extra_keys hs
      obtain ⟨x, hx1, hx2⟩ := List.mem_map.mp hl
      exact absurd hx2.symm (hg x hx1 f hf)
  · rintro ⟨v, hv, hne⟩
    left
    rcases decMeta_spec (h1 f hf v hv) with ⟨e, _⟩ | ⟨_, w, e, _⟩
    · exact absurd e hne
    · rw [e]; rfl

/-- An RP's metadata with a few claims, one of them explicitly empty, one null, one unknown. -/
def exRP : JObj := [("client_name", .str ""), ("redirect_uris", .arr [.str "https://rp/cb"]), ("scope", .null), ("default_max_age", .num 3600),
  ("x", .bool true)]

set_option maxRecDepth 10000 in
/-- The hypotheses are met by an RP's metadata; the explicitly empty claim is present, the null one is not. -/
example : UniqueNames exRP ∧ ExactNames (metaFields .rp) exRP ∧ NoGoNames (metaFields .rp) exRP ∧
    ∃ m, readEntity exOpq .rp exRP = some m ∧ "ClientName" ∈ m.wasSet ∧ "Scope" ∉ m.wasSet ∧ m.val "Scope" = some (.str "") := by
  refine ⟨by unfold UniqueNames; decide, ?_, ?_, _, rfl, by decide, by decide, rfl⟩
  · unfold ExactNames; simp only [exRP, metaFields]; decide
  · unfold NoGoNames; simp only [exRP, metaFields]; decide

/-- **C89 fails** for the presence of an attribute: an additional claim with the Go name of a field makes the attribute count as present although it
was not stated. -/
theorem C89_spoofed_refuted :
    ∃ (l : JObj) (m : MStruct), UniqueNames l ∧ ¬ States l "redirect_uris" ∧ readEntity exOpq .rp l = some m ∧ "RedirectURIS" ∈ m.wasSet := by
  refine ⟨[("RedirectURIS", .num 1)], _, by simp [UniqueNames], ?_, rfl, by decide⟩
  rintro ⟨v, hv, _⟩
  simp at hv

/-- A superior's policy: redirect URIs default to the given one. -/
def exDefault : Policy := [("redirect_uris", [("default", .slice .any false [.str "https://rp/cb"])])]

/-- The redirect URIs after applying a policy to metadata read from JSON. -/
def redirectsAfter (p : Policy) (l : JObj) : Option Val :=
  match readEntity exOpq .rp l with
  | none => none
  | some m =>
    match (m.toMeta ⟨fun _ => 0, fun _ => 0⟩ (metaFields .rp)).apply p with
    | .error _ => none
    | .ok em => (em.fields.find? (fun f => f.tag == "redirect_uris")).map Field.val

set_option maxRecDepth 10000 in
/-- **C89 fails** with consequences: neither object states redirect URIs, but the one with the additional claim escapes the superior's
default. -/
theorem C89_default_escaped_refuted :
    redirectsAfter exDefault [("client_name", .str "n")] = some (.slice .str false [.str "https://rp/cb"]) ∧
    redirectsAfter exDefault [("client_name", .str "n"), ("RedirectURIS", .num 1)] = some (.slice .str true []) := ⟨rfl, rfl⟩

theorem membersFor_once {t : EType} : ∀ {l : JObj}, StatedOnce l t.tag → (∀ kv ∈ l, ¬ SpelledAs t.tag kv.1) ∧ membersFor t l = [] ∨
    ∃ kv ∈ l, SpelledAs t.tag kv.1 ∧ membersFor t l = [kv.2] := by
  intro l
  induction l with
  | nil => intro _; exact .inl ⟨fun kv hkv => (by cases hkv), rfl⟩
  | cons a l ih =>
    intro h
    have ih' := ih (fun pre kv mid kv' post e => h (a :: pre) kv mid kv' post (by rw [e]; rfl))
    by_cases ha : SpelledAs t.tag a.1
    · right
      have hnone : ∀ kv ∈ l, ¬ SpelledAs t.tag kv.1 := by
        intro kv hkv hc
        obtain ⟨mid, post, rfl⟩ := List.append_of_mem hkv
        exact h [] a mid kv post rfl ⟨ha, hc⟩
      refine ⟨a, List.mem_cons_self, ha, ?_⟩
      have e : membersFor t (a :: l) = a.2 :: membersFor t l := by
        simp only [membersFor, List.filterMap_cons, (typeFor_iff a.1 t).mpr ha, if_true]
      rw [e]
      rcases ih' with ⟨_, h2⟩ | ⟨kv, hkv, h1, _⟩
      · rw [h2]
      · exact absurd h1 (hnone kv hkv)
    · have e : membersFor t (a :: l) = membersFor t l := by
        simp only [membersFor, List.filterMap_cons]
        rw [if_neg (fun hc => ha ((typeFor_iff a.1 t).mp hc))]
      rw [e]
      rcases ih' with ⟨h1, h2⟩ | ⟨kv, hkv, h1, h2⟩
      · left
        refine ⟨?_, h2⟩
        intro kv hkv
        rcases List.mem_cons.mp hkv with rfl | hkv
        · exact ha
        · exact h1 kv hkv
      · exact .inr ⟨kv, List.mem_cons_of_mem _ hkv, h1, h2⟩

/-- **C89** (part, entity types): if at most one member is for an entity type, upper and lower case not being told apart, the metadata of that type is what this member states.
There is none if nothing or null was stated. That other entity types are stated only once is not needed. -/
theorem C89_entity_types_partial (opq : Opaque) (l : JObj) (m : JMetadata) (h : readMetadata opq l = some m) (t : EType) :
    (StatedOnce l t.tag → ∀ k x, (k, .obj x) ∈ l → SpelledAs t.tag k → m.known t = readEntity opq t x ∧ (m.known t).isSome) ∧
    ((∀ kv ∈ l, SpelledAs t.tag kv.1 → kv.2 = .null) → m.known t = none) := by
  have key := (readMetadata_iff.mp h).1 t
  constructor
  · intro ho k x hx hk
    obtain ⟨kv, hkv, h1, h2⟩ : ∃ kv ∈ l, SpelledAs t.tag kv.1 ∧ membersFor t l = [kv.2] := by
      rcases membersFor_once ho with ⟨h1, _⟩ | h1
      · exact absurd hk (h1 _ hx)
      · exact h1
    have hin : JV.obj x ∈ membersFor t l := by
      unfold membersFor
      rw [List.mem_filterMap]
      exact ⟨(k, .obj x), hx, by simp only [(typeFor_iff k t).mpr hk, if_true]⟩
    rw [h2, List.mem_singleton] at hin
    rw [h2, ← hin] at key
    simp only [typeSeq, readType, Option.bind_eq_some_iff, Option.map_eq_some_iff] at key
    obtain ⟨_, ⟨m', h3, rfl⟩, h4⟩ := key
    rw [← Option.some.inj h4]
    exact ⟨h3.symm, rfl⟩
  · intro hn
    have hall : ∀ v ∈ membersFor t l, v = .null := by
      intro v hv
      unfold membersFor at hv
      obtain ⟨kv, hkv, e⟩ := List.mem_filterMap.mp hv
      split at e
      · rename_i hk
        cases e
        exact hn kv hkv ((typeFor_iff kv.1 t).mp hk)
      · cases e
    have seq : ∀ vs : List JV, (∀ v ∈ vs, v = .null) → typeSeq opq t vs none = some none := by
      intro vs
      induction vs with
      | nil => intro _; rfl
      | cons v vs ih =>
        intro hvs
        rw [hvs v List.mem_cons_self, typeSeq]
        exact ih (fun w hw => hvs w (List.mem_cons_of_mem _ hw))
    rw [seq _ hall] at key
    exact (Option.some.inj key).symm

/-- What was stated once was read into a new struct. -/
theorem once_read {opq : Opaque} {l : JObj} {m : JMetadata} (h : readMetadata opq l = some m) {t : EType} (ho : StatedOnce l t.tag) {s : MStruct}
    (hs : m.known t = some s) : ∃ x, readEntity opq t x = some s := by
  have key := (readMetadata_iff.mp h).1 t
  rw [hs] at key
  rcases membersFor_once ho with ⟨_, h2⟩ | ⟨kv, _, _, h2⟩
  · rw [h2] at key; cases key
  · rw [h2] at key
    simp only [typeSeq, Option.bind_eq_some_iff] at key
    obtain ⟨r, h3, h4⟩ := key
    cases h4
    unfold readType at h3
    split at h3
    · cases h3
    · simp only [Option.map_eq_some_iff, Option.some.injEq, exists_eq_right] at h3
      exact ⟨_, h3⟩
    · cases h3

/-- An RP states its metadata twice, the second time with nothing in it. -/
def exTwice (second : String) : JObj :=
  [("openid_relying_party", .obj [("token_endpoint_auth_method", .str "none"), ("redirect_uris", .arr [.str "https://rp/cb"])]), (second, .obj [])]

set_option maxRecDepth 10000 in
/-- **C89 fails** if an entity type is stated twice, also if the second name differs in upper and lower case: from the first statement strings stay, lists go,
and the string that stays counts as absent. -/
theorem C89_repeated_type_refuted (second : String) (hs : second = "openid_relying_party" ∨ second = "OpenID_Relying_Party") :
    ∃ m s, readMetadata exOpq (exTwice second) = some m ∧ m.known .rp = some s ∧
      s.val "TokenEndpointAuthMethod" = some (.str "none") ∧ "TokenEndpointAuthMethod" ∉ s.wasSet ∧ s.val "RedirectURIS" = none := by
  rcases hs with rfl | rfl <;> exact ⟨_, _, rfl, rfl, rfl, by decide, rfl⟩

set_option maxRecDepth 10000 in
example : ∃ m, readMetadata exOpq [("federation_entity", .obj [("organization_name", .str "org")]), ("oauth_client", .null)] = some m ∧
    (m.known .fed).isSome ∧ m.known .client = none := ⟨_, rfl, rfl, rfl⟩

end Oidfed
