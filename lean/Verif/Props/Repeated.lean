import Verif.Props.PolicyMerge
import Verif.Lemmas.Decoded
import Verif.Lemmas.AuthCode
/-!
# Policies and the way a leaf writes its JSON: C134
-/

namespace Oidfed
open Spec

theorem once_of_nodup {l : JObj} {claim : String} (h : (l.map (fun kv => foldName kv.1)).Nodup) : StatedOnce l claim := by
  rintro pre kv mid kv' post rfl ⟨h1, h2⟩
  simp only [List.map_append, List.map_cons] at h
  have := (List.nodup_cons.mp (List.nodup_append.mp h).2.1).1
  apply this
  rw [List.mem_append]
  right
  unfold SpelledAs at h1 h2
  rw [h1, ← h2]
  exact List.mem_cons_self

/-- A field into which at most one member is decoded has its value from that. -/
theorem decode_once {tags : List String} {dec : FieldDec} {t : String} : ∀ {l : JObj} {f g : String → Option JV},
    decodeKnown tags dec l f = some g → StatedOnce l t →
    g t = f t ∨ ∃ kv ∈ l, SpelledAs t kv.1 ∧ dec t (f t) kv.2 = some (g t) := by
  intro l
  induction l with
  | nil => intro f g h _; cases h; exact .inl rfl
  | cons a l ih =>
    obtain ⟨k, v⟩ := a
    intro f g h ho
    have ho' : StatedOnce l t := fun pre kv mid kv' post e => ho ((k, v) :: pre) kv mid kv' post (by rw [e]; rfl)
    simp only [decodeKnown] at h
    cases hf : fieldFor tags k with
    | none =>
      rw [hf] at h
      rcases ih h ho' with h1 | ⟨kv, hkv, h1⟩
      · exact .inl h1
      · exact .inr ⟨kv, List.mem_cons_of_mem _ hkv, h1⟩
    | some u =>
      rw [hf] at h
      simp only at h
      cases hd : dec u (f u) v with
      | none => rw [hd] at h; cases h
      | some x =>
        rw [hd] at h
        by_cases hu : u = t
        · subst hu
          right
          have hk : SpelledAs u k := (fieldFor_some hf).2.symm
          refine ⟨(k, v), List.mem_cons_self, hk, ?_⟩
          have := decode_other (t := u) h (by
            intro kv hkv hc
            obtain ⟨mid, post, rfl⟩ := List.append_of_mem hkv
            exact ho [] (k, v) mid kv post rfl ⟨hk, (fieldFor_some hc).2.symm⟩)
          rw [this, hd]
          simp
        · rcases ih h ho' with h1 | ⟨kv, hkv, h1⟩
          · left; rw [h1]; simp [Ne.symm hu]
          · right
            refine ⟨kv, List.mem_cons_of_mem _ hkv, ?_⟩
            simpa [Ne.symm hu] using h1

/-- **C134** (part): whatever JSON a leaf publishes, if the metadata resolved from a chain that starts with its statement has an entity type that was stated only once, every
attribute of that type obeys, in each policy of the chain, the restrictions for it. Missing: entity types that are stated more than once, for which the claim is
refuted below; policies with unknown operators or repeated values. -/
theorem C134_stated_once_partial (K : KeyCodec) (opq : Opaque) (N : Numbering) (raw : Option Nat) (l : JObj) (q : ESPayload)
    (h : ESPayload.read K opq l = some q) (t : EType) (hm : StatedOnce l "metadata")
    (ht : ∀ k x, (k, .obj x) ∈ l → SpelledAs "metadata" k → StatedOnce x t.tag) (b : Stmt) (rest : Chain) (md : Metadata)
    (hg : ∀ s ∈ q.toStmt N raw :: b :: rest, ∀ P, s.policy = some P → GoodPolicy (P.known t) ∧ Policy.verify (P.known t) = .ok ())
    (hr : chainMetadata (q.toStmt N raw :: b :: rest) = .ok (some md)) (em : EntityMeta) (hem : md.known t = some em) :
    ∀ f ∈ em.fields, ∃ isSet, ∀ s ∈ q.toStmt N raw :: b :: rest, ∀ P, s.policy = some P → ∀ e, AMap.get (P.known t) f.tag = some e →
      FieldObeys e isSet f := by
  have h0 := h
  simp only [ESPayload.read, Option.map_eq_some_iff] at h
  obtain ⟨o, ho, rfl⟩ := h
  cases hJ : (o.known "metadata").bind (decMetadata opq) with
  | none =>
    exfalso
    have hn : ((ESPayload.ofStruct K opq o).toStmt N raw).metadata = none := by
      show ((o.known "metadata").bind (decMetadata opq)).map (JMetadata.toMetadata N) = none
      rw [hJ]; rfl
    obtain ⟨p, md', e, _, ha⟩ := chainMetadata_ok hr
    cases e
    rw [hn] at ha
    rw [((applyPolicy_ok ha).1 t).1 rfl] at hem
    cases hem
  | some J =>
    have hmd : ((ESPayload.ofStruct K opq o).toStmt N raw).metadata = some (J.toMetadata N) := by
      show ((o.known "metadata").bind (decMetadata opq)).map (JMetadata.toMetadata N) = _
      rw [hJ]; rfl
    obtain ⟨v, hv, hvJ⟩ := Option.bind_eq_some_iff.mp hJ
    cases hk : J.known t with
    | none =>
      exfalso
      have hn : (J.toMetadata N).known t = none := by
        show (J.known t).map _ = none
        rw [hk]; rfl
      obtain ⟨p, md', e, _, ha⟩ := chainMetadata_ok hr
      cases e
      rw [hmd] at ha
      rw [((applyPolicy_ok ha).1 t).1 hn] at hem
      cases hem
    | some ms =>
      have hknown : (J.toMetadata N).known t = some (ms.toMeta N (metaFields t)) := by
        show (J.known t).map _ = _
        rw [hk]; rfl
      -- the struct was new
      obtain ⟨x, hx⟩ : ∃ x, readEntity opq t x = some ms := by
        rcases decode_once (unmarshal_some ho).1 hm with h1 | ⟨kv, hkv, h1, h2⟩
        · rw [hv] at h1; cases h1
        · have h3 : keepInto (joinKnown (EType.all.map EType.tag)) (fun v => (decMetadata opq v).isSome) none kv.2 = some (o.known "metadata") := h2
          rw [keepInto_none, hv] at h3
          have e : kv.2 = v := by
            cases hkv2 : kv.2 <;> rw [hkv2] at h3 <;> simp only [keepIf] at h3
            case null => cases h3
            all_goals
              split at h3
              · cases h3; rfl
              · cases h3
          cases v <;> simp only [decMetadata] at hvJ
          case obj y =>
            have hin : (kv.1, JV.obj y) ∈ l := by rw [← e]; exact hkv
            exact once_read hvJ (ht kv.1 y hin h1) hk
          all_goals cases hvJ
      have hflag : ∀ f ∈ (ms.toMeta N (metaFields t)).fields, (ms.toMeta N (metaFields t)).wasSet.contains f.name = false → Unset f.val := by
        intro f hf hw
        rcases List.mem_append.mp hf with hf | hf
        case inr =>
          obtain rfl := List.mem_singleton.mp hf
          have hn : "Extra" ∉ ms.wasSet := by
            intro hmem
            have : ms.wasSet.contains "Extra" = false := hw
            rw [List.contains_iff_mem.mpr hmem] at this
            cases this
          unfold extraField
          rw [entity_extra hx hn]
          exact .obj
        obtain ⟨g, hgm, rfl⟩ := List.mem_map.mp hf
        have hn : g.name ∉ ms.wasSet := by
          intro hmem
          have : ms.wasSet.contains g.name = false := hw
          rw [List.contains_iff_mem.mpr hmem] at this
          cases this
        show Unset (g.kind.goVal N.obj (ms.val g.name))
        rw [entity_flag hx hgm hn]
        exact goVal_zero _ _
      obtain ⟨md', em', e, hem', _, hob⟩ := C20_chain_obeys_partial _ b rest _ t hg _ hmd _ hknown hflag hr
      cases e
      rw [hem] at hem'
      cases hem'
      intro f hf
      obtain ⟨i, hi, hfi⟩ := List.mem_iff_getElem.mp hf
      refine ⟨(ms.toMeta N (metaFields t)).wasSet.contains f.name, ?_⟩
      intro s hs' P hP e he
      exact hob i f (by rw [List.getElem?_eq_getElem hi, hfi]) s hs' P hP e he

/-! ## Refutation, and a case that meets the hypotheses -/

namespace ExRep

/-- Numbers for objects and fractions. -/
def N : Numbering := ⟨fun k => k.key, fun _ => 0⟩

/-- A statement read from JSON. -/
def stmt (l : JObj) : Option Stmt := (ESPayload.read ExS.codec ExS.opq l).map (fun q => q.toStmt N none)

/-- The payload of a leaf's entity configuration with the given metadata. -/
def leaf (metadata : JV) : JObj :=
  [("iss", .str "https://rp"), ("sub", .str "https://rp"), ("iat", .num 1700000000), ("exp", .num 1700086400), ("jwks", .obj [("keys", .arr [])]),
   ("authority_hints", .arr [.str "https://ta"]), ("metadata", metadata)]

/-- The trust anchor's statement about the leaf: if the token endpoint authentication method of an RP is given, it must be `private_key_jwt`. -/
def sup : JObj :=
  [("iss", .str "https://ta"), ("sub", .str "https://rp"), ("iat", .num 1700000000), ("exp", .num 1700086400), ("jwks", .obj [("keys", .arr [])]),
   ("metadata_policy", .obj [("openid_relying_party", .obj [("token_endpoint_auth_method", .obj [("one_of", .arr [.str "private_key_jwt"])])])])]

/-- The policy entry as it is read. -/
def entry : Entry := [("one_of", .slice .any false [.str "private_key_jwt"])]

/-- The token endpoint authentication method an RP's resolved metadata has. -/
def authMethod (md : Metadata) : Option Field := (md.known .rp).bind (fun em => em.fields.find? (fun f => f.tag == "token_endpoint_auth_method"))

/-- Metadata resolved from the chain of a leaf with the given metadata and the trust anchor's statement. -/
def resolved (metadata : JV) : Option (Res (Option Metadata)) := do
  let a ← stmt (leaf metadata)
  let b ← stmt sup
  return chainMetadata [a, b]

/-- The method in it. -/
def method (metadata : JV) : Option Val :=
  match resolved metadata with
  | some (.ok (some md)) => (authMethod md).map Field.val
  | _ => none

/-- Metadata that states the method. -/
def once (m : String) : JV := .obj [("openid_relying_party", .obj [("token_endpoint_auth_method", .str m)])]

/-- Metadata that states the method, and then the entity type again. -/
def twice (m second : String) : JV := .obj [("openid_relying_party", .obj [("token_endpoint_auth_method", .str m)]), (second, .obj [])]

end ExRep

open ExRep in
set_option maxRecDepth 10000 in
/-- **C134** refuted: a superior demands that RPs authenticate with `private_key_jwt`. The leaf that states another method is refused. The leaf that states the
same method and then its entity type once more, in the same spelling or in another, is resolved, with the method it must not have. -/
theorem C134_repeated_type_refuted :
    (∃ b P, stmt sup = some b ∧ b.policy = some P ∧ AMap.get (P.known .rp) "token_endpoint_auth_method" = some entry) ∧
    resolved (once "none") = some (.error .error) ∧
    ∀ second, second = "openid_relying_party" ∨ second = "OPENID_RELYING_PARTY" →
      ∃ md f, resolved (twice "none" second) = some (.ok (some md)) ∧ authMethod md = some f ∧ f.val = .str "none" ∧ ∀ isSet, ¬ FieldObeys entry isSet f := by
  refine ⟨⟨_, _, rfl, rfl, by with_unfolding_all rfl⟩, by with_unfolding_all rfl, ?_⟩
  intro second hs
  have key : ∀ f : Field, f.val = .str "none" → f.ty = .str → f.name ≠ "Scope" → ∀ isSet, ¬ FieldObeys entry isSet f := by
    rintro f hv hty hn isSet ⟨v, hv', hob, _⟩
    rcases hv' with (rfl | ⟨hs, _⟩) | ⟨rfl, hz⟩
    · have hp : Present isSet f.val := by
        rw [hv]
        exact ⟨by simp, .inr (fun hu => absurd ((isZero_iff _).mpr hu) (by decide))⟩
      have := hob.oneOf (.inl hp) _ rfl (by simp)
      rw [hv] at this
      simp [Val.elems] at this
    · exact absurd hs hn
    · rw [hv, hty] at hz
      exact absurd hz (by decide)
  rcases hs with rfl | rfl
  · refine ⟨_, _, by with_unfolding_all rfl, rfl, rfl, ?_⟩
    exact key _ rfl rfl (by decide)
  · refine ⟨_, _, by with_unfolding_all rfl, rfl, rfl, ?_⟩
    exact key _ rfl rfl (by decide)

open ExRep in
set_option maxRecDepth 10000 in
/-- The leaf that states the demanded method, once, is resolved, and meets the hypotheses of `C134_stated_once_partial`. -/
example : ∃ q md em, ESPayload.read ExS.codec ExS.opq (leaf (once "private_key_jwt")) = some q ∧ StatedOnce (leaf (once "private_key_jwt")) "metadata" ∧
    (∀ k x, (k, .obj x) ∈ leaf (once "private_key_jwt") → SpelledAs "metadata" k → StatedOnce x EType.rp.tag) ∧
    (∃ b, stmt sup = some b ∧ chainMetadata [q.toStmt N none, b] = .ok (some md) ∧
      ∀ s ∈ [q.toStmt N none, b], ∀ P, s.policy = some P → GoodPolicy (P.known .rp) ∧ Policy.verify (P.known .rp) = .ok ()) ∧
    md.known .rp = some em ∧ (em.fields.find? (fun f => f.tag == "token_endpoint_auth_method")).map Field.val = some (.str "private_key_jwt") := by
  refine ⟨_, _, _, rfl, ?_, ?_, ⟨_, rfl, by with_unfolding_all rfl, ?_⟩, rfl, rfl⟩
  · apply once_of_nodup; decide
  · intro k x hx hk
    have : JV.obj x = once "private_key_jwt" := by
      simp only [leaf, List.mem_cons, Prod.mk.injEq, List.not_mem_nil, or_false] at hx
      rcases hx with ⟨_, h⟩ | ⟨_, h⟩ | ⟨_, h⟩ | ⟨_, h⟩ | ⟨rfl, _⟩ | ⟨_, h⟩ | ⟨_, h⟩
      case inr.inr.inr.inr.inl => exact absurd hk (by unfold SpelledAs; decide)
      case inr.inr.inr.inr.inr.inr => exact h
      all_goals cases h
    cases this
    apply once_of_nodup; decide
  · intro s hs P hP
    rcases List.mem_cons.mp hs with rfl | hs
    · cases hP
    · rw [List.mem_singleton] at hs
      subst hs
      cases hP
      refine ⟨⟨by unfold AMap.WF; decide, ?_⟩, by with_unfolding_all rfl⟩
      intro k e he
      have he' : AMap.get [("token_endpoint_auth_method", entry)] k = some e := by with_unfolding_all exact he
      rw [jget_cons] at he'
      split at he'
      · cases he'
        refine ⟨by unfold AMap.WF; decide, ?_, ?_, ?_⟩
        · rintro n ⟨v, hv⟩
          unfold entry at hv
          have hv' : (if "one_of" = n then some (Val.slice .any false [.str "private_key_jwt"]) else none) = some v := hv
          split at hv'
          · rename_i e; subst e; exact .inr (.inr (.inr (.inl rfl)))
          · cases hv'
        · intro s hs; cases hs
        · intro s hs; cases hs
      · cases he'

end Oidfed
