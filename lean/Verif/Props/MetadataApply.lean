import Verif.Lemmas.NoPanic
import Verif.Lemmas.Alias
import Verif.Props.PolicyMerge
/-!
# Properties C29-C31, C58, C59: applying policies to metadata
-/

namespace Oidfed
open Spec

/-! ## C29 -/

/-- C29: after applying policies, an entity type that was absent is still absent; one that was present still has its attributes
in the same places under the same names and types, and exactly the same value wherever the policy of that
type has no entry for the attribute. Entity types unknown to the library are unchanged. The additional claims of a type are the same
if its policy has no entry named `-`. Missing: the additional claims if there is one, see the next theorem. -/
theorem C29_frame_partial (m m' : Metadata) (p : Policies) (h : m.applyPolicy (some p) = .ok m') :
    (∀ t, m.known t = none → m'.known t = none) ∧
    (∀ t em, m.known t = some em → ∃ em', m'.known t = some em' ∧ (AMap.get (p.known t) "-" = none → em'.extra = em.extra) ∧ em'.wasSet = em.wasSet ∧
      em'.fields.length = em.fields.length ∧
      ∀ (i : Nat) f, em.fields[i]? = some f → ∃ f', em'.fields[i]? = some f' ∧ f'.name = f.name ∧ f'.tag = f.tag ∧
        f'.ty = f.ty ∧ (AMap.get (p.known t) f.tag = none → f' = f)) ∧
    m'.extra.getD [] = m.extra.getD [] := by
  obtain ⟨h1, h2⟩ := applyPolicy_ok h
  refine ⟨fun t => (h1 t).1, ?_, h2⟩
  intro t em hem
  obtain ⟨em', ha, hem'⟩ := (h1 t).2 em hem
  obtain ⟨a1, a2, a3⟩ := apply_ok ha
  obtain ⟨b1, b2⟩ := applyFields_ok a1
  refine ⟨em', hem', a3, a2, b1, ?_⟩
  intro i f hf
  obtain ⟨f', hf', hfa⟩ := b2 i f hf
  refine ⟨f', hf', ?_⟩
  rcases applyField_ok hfa with ⟨hn, rfl⟩ | ⟨e, v, he, _, n1, n2, n3, _⟩
  · exact ⟨rfl, rfl, rfl, fun _ => rfl⟩
  · exact ⟨n1, n2, n3, fun hn => by rw [hn] at he; cases he⟩

/-- A client with a name and two claims the library does not know. -/
def withExtra : EntityMeta :=
  ⟨[⟨"ClientName", "client_name", .str, .str "n"⟩, ⟨"Extra", "-", .obj, .obj (some 7)⟩], ["ClientName", "Extra", "vendor", "tier"],
    [("vendor", .str "a"), ("tier", .str "gold")]⟩

/-- C29 is false: the map of the additional claims is itself a field of the struct, with the tag `-`. An entry with that name removes or replaces all
additional claims, none of which it names, and one with `add` panics. -/
theorem C29_additional_claims_refuted :
    (∀ k, AMap.get withExtra.extra k ≠ none → AMap.get [("-", ([("value", .nil)] : Entry))] k = none) ∧
    Policy.verify [("-", [("value", .nil)])] = .ok () ∧
    withExtra.apply [("-", [("value", .nil)])] =
      .ok ⟨[⟨"ClientName", "client_name", .str, .str "n"⟩, ⟨"Extra", "-", .obj, .obj none⟩], withExtra.wasSet, []⟩ ∧
    withExtra.apply [("-", [("value", .obj (some 8))])] =
      .ok ⟨[⟨"ClientName", "client_name", .str, .str "n"⟩, ⟨"Extra", "-", .obj, .obj (some 8)⟩], withExtra.wasSet, []⟩ ∧
    withExtra.apply [("-", [("add", jl ["a"])])] = .error .panic := by
  refine ⟨?_, rfl, rfl, rfl, rfl⟩
  intro k hk
  have : k = "vendor" ∨ k = "tier" := by
    simp only [withExtra, AMap.get] at hk
    split at hk
    · rename_i h; exact .inl (by simpa using h.symm)
    · split at hk
      · rename_i h; exact .inr (by simpa using h.symm)
      · exact absurd rfl hk
  rcases this with rfl | rfl <;> rfl

/-- C29: an entity type whose policy is empty is returned exactly as it was. -/
theorem C29_no_policy_unchanged (m m' : Metadata) (p : Policies) (h : m.applyPolicy (some p) = .ok m') (t : EType)
    (ht : p.known t = []) : m'.known t = m.known t := by
  cases hm : m.known t with
  | none => exact (C29_frame_partial m m' p h).1 t hm
  | some em =>
    obtain ⟨em', hem', hx, hw, hl, hf⟩ := (C29_frame_partial m m' p h).2.1 t em hm
    rw [hem']
    have hx := hx (by rw [ht]; rfl)
    have : em'.fields = em.fields := by
      apply List.ext_getElem? 
      intro i
      cases hi : em.fields[i]? with
      | none => rw [List.getElem?_eq_none_iff] at hi ⊢; omega
      | some f =>
        obtain ⟨f', hf', _, _, _, hn⟩ := hf i f hi
        rw [hf', hn (by rw [ht]; rfl)]
    cases em
    cases em'
    simp_all

/-- C29: a nil policy changes nothing. -/
theorem C29_nil_policy (m : Metadata) : m.applyPolicy none = .ok m := rfl

/-- A policy on one attribute that changes it, next to one it does not name. -/
example : (((Ex.polLeaf.metadata.getD Metadata.empty).applyPolicy (some (Ex.rpPol [("name", [("value", .str "z")])]))).toOption.bind
      (fun m => m.known .rp)) =
    some ⟨[⟨"Scopes", "scopes", .slice .str, sl ["x", "a", "b"]⟩, ⟨"Name", "name", .str, .str "z"⟩], ["Scopes"], []⟩ := by rfl

/-! ## C30 -/

/-- A struct with an integer, a string and a list attribute. -/
def npMeta : Metadata :=
  ⟨fun t => if t = .rp then some ⟨[⟨"DefaultMaxAge", "default_max_age", .int, .int 0⟩,
      ⟨"ClientName", "client_name", .str, .str "n"⟩, ⟨"GrantTypes", "grant_types", .slice .str, sl ["code"]⟩,
      ⟨"Scope", "scope", .str, .str "openid"⟩],
    ["ClientName", "GrantTypes", "Scope"], []⟩ else none, none⟩

/-- C30 is false: a policy that sets `default_max_age` to a number (which JSON decodes to `float64`) panics, because the struct
field is an `int64`. -/
theorem C30_no_panic_refuted :
    ¬ ∀ (m : Metadata) (p : Policies), (∀ t, Policy.verify (p.known t) = .ok ()) → m.applyPolicy (some p) ≠ .error .panic := by
  intro h
  exact h npMeta (Ex.rpPol [("default_max_age", [("value", .num 3600)])]) (by intro t; cases t <;> rfl) rfl

/-- C30 is false: a set operator on a string attribute panics, and so does a scalar `value` on a list attribute. -/
theorem C30_type_mismatch_refuted :
    npMeta.applyPolicy (some (Ex.rpPol [("client_name", [("subset_of", jl ["n"])])])) = .error .panic ∧
    npMeta.applyPolicy (some (Ex.rpPol [("client_name", [("add", jl ["n"])])])) = .error .panic ∧
    npMeta.applyPolicy (some (Ex.rpPol [("grant_types", [("value", .str "code")])])) = .error .panic ∧
    npMeta.applyPolicy (some (Ex.rpPol [("grant_types", [("add", .slice .any false [.num 1])])])) = .error .panic := ⟨rfl, rfl, rfl, rfl⟩

/-- C30 is false: a null operand next to `subset_of` makes verification panic. -/
theorem C30_null_verify_refuted :
    Entry.verify [("subset_of", jl ["a"]), ("value", .nil)] = .error .panic ∧
    Entry.verify [("subset_of", jl ["a"]), ("add", .nil)] = .error .panic ∧
    Entry.verify [("subset_of", jl ["a"]), ("superset_of", .nil)] = .error .panic ∧
    Entry.verify [("value", jl ["a"]), ("add", .nil)] = .error .panic := ⟨rfl, rfl, rfl, rfl⟩

/-- C30 is false: metadata of an entity type unknown to the library panics if there is a policy for that type, even one that says nothing. -/
theorem C30_extra_type_refuted :
    ¬ ∀ (m : Metadata) (p : Policies), (∀ t, p.known t = []) → (∀ k q, AMap.get p.extra k = some q → q.getD [] = []) → m.applyPolicy (some p) ≠ .error .panic := by
  intro h
  refine h ⟨fun _ => none, some [("wallet", .obj (some 1))]⟩ ⟨fun _ => [], [("wallet", some [])]⟩ (fun _ => rfl) ?_ rfl
  intro k q hq
  simp only [AMap.get] at hq
  split at hq
  · cases hq; rfl
  · cases hq

/-- C30: and whatever the policy says; only nil policies leave such metadata as it is. -/
theorem C30_extra_type (m : Metadata) (p : Policies) (xs : AMap Val) (hx : m.extra = some xs) (hk : ∀ t, p.known t = []) :
    (m.applyPolicy (some p) = .error .panic ↔ ∃ k v q, (k, v) ∈ xs ∧ AMap.get p.extra k = some (some q)) ∧
    m.applyPolicy (some p) ≠ .error .error := by
  have hkn : ∀ ts, ∃ r, applyKnown m p ts = .ok r := by
    intro ts
    induction ts with
    | nil => exact ⟨_, rfl⟩
    | cons t ts ih =>
      obtain ⟨r, hr⟩ := ih
      unfold applyKnown
      cases hm : m.known t with
      | none => exact ⟨_, by simp only [hr]; rfl⟩
      | some em =>
        have : ∃ em', em.apply (p.known t) = .ok em' := by
          rw [hk]
          have hf : ∀ fs ws, applyFields [] ws fs = .ok fs := by
            intro fs ws
            induction fs with
            | nil => rfl
            | cons f fs ih => simp only [applyFields, applyField, AMap.get, ih]; rfl
          exact ⟨_, by unfold EntityMeta.apply; rw [hf]; rfl⟩
        obtain ⟨em', he⟩ := this
        exact ⟨_, by simp only [he, hr]; rfl⟩
  have hxs : ∀ ys : AMap Val, (applyExtra p.extra ys = .error .panic ∧ ∃ k v q, (k, v) ∈ ys ∧ AMap.get p.extra k = some (some q)) ∨
      (applyExtra p.extra ys = .ok ys ∧ ¬ ∃ k v q, (k, v) ∈ ys ∧ AMap.get p.extra k = some (some q)) := by
    intro ys
    induction ys with
    | nil => exact .inr ⟨rfl, by simp⟩
    | cons kv ys ih =>
      obtain ⟨k, v⟩ := kv
      unfold applyExtra
      cases hg : AMap.get p.extra k with
      | none =>
        rcases ih with ⟨h1, k', v', q, h2, h3⟩ | ⟨h1, h2⟩
        · exact .inl ⟨by simp only [h1]; rfl, k', v', q, by simp [h2], h3⟩
        · refine .inr ⟨by simp only [h1]; rfl, ?_⟩
          rintro ⟨k', v', q, hm, h3⟩
          rcases List.mem_cons.mp hm with e | hm
          · cases e; rw [hg] at h3; cases h3
          · exact h2 ⟨k', v', q, hm, h3⟩
      | some o =>
        cases o with
        | some q => exact .inl ⟨rfl, k, v, q, by simp, hg⟩
        | none =>
          rcases ih with ⟨h1, k', v', q, h2, h3⟩ | ⟨h1, h2⟩
          · exact .inl ⟨by simp only [h1]; rfl, k', v', q, by simp [h2], h3⟩
          · refine .inr ⟨by simp only [h1]; rfl, ?_⟩
            rintro ⟨k', v', q, hm, h3⟩
            rcases List.mem_cons.mp hm with e | hm
            · cases e; rw [hg] at h3; cases h3
            · exact h2 ⟨k', v', q, hm, h3⟩
  obtain ⟨r, hr⟩ := hkn EType.all
  have hap : m.applyPolicy (some p) = (applyExtra p.extra xs).bind (fun x => .ok ⟨r, if x.isEmpty then none else some x⟩) := by
    simp only [Metadata.applyPolicy, hr, hx, Option.getD_some]
    rfl
  rw [hap]
  rcases hxs xs with ⟨h1, h2⟩ | ⟨h1, h2⟩
  · rw [h1]
    exact ⟨⟨fun _ => h2, fun _ => rfl⟩, fun h => by cases h⟩
  · rw [h1]
    exact ⟨⟨fun h => by (cases h), fun h => absurd h h2⟩, fun h => by cases h⟩

example : (⟨fun _ => none, some [("wallet", .obj (some 1)), ("other", .obj (some 2))]⟩ : Metadata).applyPolicy (some ⟨fun _ => [], [("other", some []), ("x", none)]⟩) =
    .error .panic := rfl

/-- C30 (verification): an entry without nulls whose set operators have arrays never panics in verification, whatever else it
holds. -/
theorem C30_verify_partial (p : Entry) (h : TypedEntry .unknown p) : p.verify ≠ .error .panic := verify_np h

/-- C30 (merging and applying): resolving the metadata of a chain never panics if every policy in the chain fits the
attributes of the leaf's metadata (`TypedPolicy`: no nulls, arrays for set operators, operands of the attribute's type) and no
policy is for an entity type unknown to the library. Missing: the mismatches refuted above. -/
theorem C30_no_panic_partial (c : Chain) (ho : ∀ s ∈ c, ∀ P, s.policy = some P → P.extra = [] ∧
      ∀ t, TypedPolicy (fieldsOf (c.head?.bind Stmt.metadata) t) (P.known t))
    (hf : ∀ t, ∀ f ∈ fieldsOf (c.head?.bind Stmt.metadata) t, FieldOk f) :
    chainMetadata c ≠ .error .panic := by
  show NP (chainMetadata c)
  match c, ho, hf with
  | [], _, _ => exact NP.err
  | [s], _, _ => exact NP.ok _
  | a :: b :: rest, ho, hf =>
    unfold chainMetadata
    dsimp only
    split
    · exact NP.err
    have hq : ∀ P ∈ (((a :: b :: rest).map Stmt.policy).filterMap id), P.extra = [] ∧
        ∀ t, TypedPolicy (fieldsOf a.metadata t) (P.known t) := by
      intro P hP
      rw [List.mem_filterMap] at hP
      obtain ⟨o, ho', rfl⟩ := hP
      rw [List.mem_map] at ho'
      obtain ⟨s, hs, hsp⟩ := ho'
      exact ho s hs P hsp
    have hall : ∀ t, ∀ p ∈ ((((a :: b :: rest).map Stmt.policy).filterMap id).map (fun p => p.known t)),
        TypedPolicy (fieldsOf a.metadata t) p := by
      intro t p hp
      rw [List.mem_map] at hp
      obtain ⟨P, hP, rfl⟩ := hp
      exact (hq P hP).2 t
    have hmerge : NP (mergePolicies ((a :: b :: rest).map Stmt.policy)) := by
      unfold mergePolicies
      refine NP.bind (mergeKnown_np (fun t => (combineAll_typed (hall t)).1) _) (fun _ _ => NP.bind ?_ (fun _ _ => NP.ok _))
      refine mergeExtra_np (fun k => ?_) _
      have : ∀ (qs : List Policies), (∀ P ∈ qs, P.extra = []) → qs.filterMap (fun p => AMap.get p.extra k) = [] := by
        intro qs hqs
        rw [List.filterMap_eq_nil_iff]
        intro P hP
        rw [hqs P hP]
        rfl
      rw [this _ (fun P hP => (hq P hP).1)]
      exact NP.ok _
    refine NP.bind hmerge (fun p hp => NP.bind ?_ (fun _ _ => NP.ok _))
    unfold Metadata.applyPolicy
    refine NP.bind (applyKnown_np ?_ _) (fun _ _ => NP.bind (applyExtra_np ?_) (fun _ _ => NP.ok _))
    · intro t em hem
      cases hmd : a.metadata with
      | none => rw [hmd] at hem; cases hem
      | some md =>
        rw [hmd] at hem
        have hfo : fieldsOf a.metadata t = em.fields := by
          unfold fieldsOf
          rw [hmd]
          dsimp only
          rw [show md.known t = some em from hem]
        have h1 := hall t
        have h2 := hf t
        rw [hfo] at h1
        rw [show ((a :: b :: rest).head?.bind Stmt.metadata) = a.metadata from rfl, hfo] at h2
        exact ⟨(combineAll_typed h1).2 _ (mergePolicies_ok hp t), h2⟩
    · have hx : p.extra = [] := by
        unfold mergePolicies at hp
        obtain ⟨k, hk, hp⟩ := bind_ok hp
        obtain ⟨x, hx, hp⟩ := bind_ok hp
        cases hp
        have hkeys := mergeExtra_keys hx
        have : extraTypes (((a :: b :: rest).map Stmt.policy).filterMap id) = [] := by
          cases he : extraTypes (((a :: b :: rest).map Stmt.policy).filterMap id) with
          | nil => rfl
          | cons k ks =>
            obtain ⟨P, hP, hk⟩ := mem_extraTypes.mp (by rw [he]; simp : k ∈ extraTypes _)
            rw [(hq P hP).1] at hk
            cases hk
        rw [this] at hkeys
        cases x with
        | nil => rfl
        | cons _ _ => simp [AMap.keys] at hkeys
      intro kv _
      rw [hx]
      rfl

/-- A policy with five kinds of operators on list, string and `scope` attributes fits `npMeta`. -/
example : TypedPolicy (fieldsOf (some npMeta) .rp)
      [("grant_types", [("subset_of", jl ["code", "implicit"]), ("add", jl ["code"])]),
       ("client_name", [("default", .str "x"), ("essential", .bool true)]),
       ("scope", [("subset_of", jl ["openid"])]), ("unheard_of", [("value", .num 1)])] ∧
    ∀ f ∈ fieldsOf (some npMeta) .rp, FieldOk f := by
  have hl : ∀ (sh : Shape) (op : String) (xs : List String), op ≠ "value" → op ≠ "default" → ElemsOk sh (jl xs).elems →
      TypedOp sh op (jl xs) := fun sh op xs h1 h2 h3 =>
    ⟨by simp [jl], fun _ => ⟨_, _, rfl⟩, fun _ => h3, fun h => h.elim (fun e => absurd e h1) (fun e => absurd e h2)⟩
  have hs : ∀ (sh : Shape) (op : String) (v : Val), (op = "value" ∨ op = "default" ∨ op = "essential") → v ≠ .nil →
      (op = "value" ∨ op = "default" → ValueOk sh v) → TypedOp sh op v := by
    intro sh op v h1 h2 h3
    refine ⟨h2, ?_, ?_, h3⟩
    · rcases h1 with rfl | rfl | rfl <;> simp
    · rcases h1 with rfl | rfl | rfl <;> simp
  have hstr : ∀ (e : ETy) (xs : List String), e = .str → ∀ x ∈ (jl xs).elems, fitsElem e x = true := by
    rintro e xs rfl x hx
    simp [jl, Val.elems] at hx
    obtain ⟨_, _, rfl⟩ := hx
    rfl
  constructor
  · intro ke hke
    simp only [List.mem_cons, List.not_mem_nil, or_false] at hke
    rcases hke with rfl | rfl | rfl | rfl
    · refine ⟨?_, ?_⟩
      · intro kv hkv
        simp only [List.mem_cons, List.not_mem_nil, or_false] at hkv
        rcases hkv with rfl | rfl
        · exact hl _ _ _ (by decide) (by decide) trivial
        · exact hl _ _ _ (by decide) (by decide) trivial
      · intro f hf ht
        simp only [fieldsOf, npMeta, if_true, List.mem_cons, List.not_mem_nil, or_false] at hf
        rcases hf with rfl | rfl | rfl | rfl <;> simp at ht
        intro kv hkv
        simp only [List.mem_cons, List.not_mem_nil, or_false] at hkv
        rcases hkv with rfl | rfl
        · exact hl _ _ _ (by decide) (by decide) (hstr _ _ rfl)
        · exact hl _ _ _ (by decide) (by decide) (hstr _ _ rfl)
    · refine ⟨?_, ?_⟩
      · intro kv hkv
        simp only [List.mem_cons, List.not_mem_nil, or_false] at hkv
        rcases hkv with rfl | rfl
        · exact hs _ _ _ (by simp) (by simp) (fun _ => trivial)
        · exact hs _ _ _ (by simp) (by simp) (fun _ => trivial)
      · intro f hf ht
        simp only [fieldsOf, npMeta, if_true, List.mem_cons, List.not_mem_nil, or_false] at hf
        rcases hf with rfl | rfl | rfl | rfl <;> simp at ht
        intro kv hkv
        simp only [List.mem_cons, List.not_mem_nil, or_false] at hkv
        rcases hkv with rfl | rfl
        · exact hs _ _ _ (by simp) (by simp) (fun _ => ⟨rfl, rfl⟩)
        · exact hs _ _ _ (by simp) (by simp) (by simp)
    · refine ⟨?_, ?_⟩
      · intro kv hkv
        simp only [List.mem_cons, List.not_mem_nil, or_false] at hkv
        rcases hkv with rfl
        exact hl _ _ _ (by decide) (by decide) trivial
      · intro f hf ht
        simp only [fieldsOf, npMeta, if_true, List.mem_cons, List.not_mem_nil, or_false] at hf
        rcases hf with rfl | rfl | rfl | rfl <;> simp at ht
        intro kv hkv
        simp only [List.mem_cons, List.not_mem_nil, or_false] at hkv
        rcases hkv with rfl
        exact hl _ _ _ (by decide) (by decide) (hstr _ _ rfl)
    · refine ⟨?_, ?_⟩
      · intro kv hkv
        simp only [List.mem_cons, List.not_mem_nil, or_false] at hkv
        rcases hkv with rfl
        exact hs _ _ _ (by simp) (by simp) (fun _ => trivial)
      · intro f hf ht
        simp only [fieldsOf, npMeta, if_true, List.mem_cons, List.not_mem_nil, or_false] at hf
        rcases hf with rfl | rfl | rfl | rfl <;> simp at ht
  · intro f hf
    simp only [fieldsOf, npMeta, if_true, List.mem_cons, List.not_mem_nil, or_false] at hf
    rcases hf with rfl | rfl | rfl | rfl <;> exact ⟨rfl, by simp⟩

/-! ## C31 -/

/-- C31 is false: a restriction on an attribute that the metadata has, but the struct has no field for, is ignored. Here
`value` demands "b" and `essential`, and the extra attribute keeps "a". -/
theorem C31_unknown_attribute_refuted :
    ¬ ∀ (em em' : EntityMeta) (p : Policy) (k : String) (v : Val) (e : Entry), em.apply p = .ok em' →
      AMap.get em.extra k = some v → AMap.get p k = some e →
      ∃ v', AMap.get em'.extra k = some v' ∧ Obeys e true v' := by
  intro h
  obtain ⟨v', hv', ho⟩ := h ⟨[], [], [("vendor", .str "a")]⟩ ⟨[], [], [("vendor", .str "a")]⟩ [("vendor", [("value", .str "b")])]
    "vendor" (.str "a") [("value", .str "b")] rfl rfl rfl
  cases hv'
  have := (ho.value _ rfl (.str "b")).mpr (by decide)
  revert this
  decide

/-- C31 where it holds: for an attribute that is a field of the struct, the entry is applied (or application fails), so the
result obeys the entry. -/
theorem C31_known_attribute_partial (em em' : EntityMeta) (p : Policy) (h : em.apply p = .ok em')
    (hv : ∀ k e, AMap.get p k = some e → e.verify = .ok ())
    (i : Nat) (f : Field) (hf : em.fields[i]? = some f)
    (hflag : em.wasSet.contains f.name = false → Unset f.val)
    (e : Entry) (he : AMap.get p f.tag = some e) :
    ∃ f', em'.fields[i]? = some f' ∧ f'.tag = f.tag ∧ FieldObeys e (em.wasSet.contains f.name) f' := by
  obtain ⟨a1, a2, a3⟩ := apply_ok h
  obtain ⟨f', hf', hfa⟩ := (applyFields_ok a1).2 i f hf
  rcases applyField_ok hfa with ⟨hn, _⟩ | ⟨e', v, he', hap, n1, n2, n3, hr⟩
  · rw [he] at hn; cases hn
  · rw [he] at he'
    cases he'
    refine ⟨f', hf', n2, v, ?_, C19_restrictions_partial e f.val _ v (hv _ _ he) hflag hap⟩
    rcases hr with ⟨h1, h2⟩ | ⟨h1, h2, _⟩
    · exact .inr ⟨h1, by rw [n3]; exact h2⟩
    · refine .inl ?_
      rw [h2, n1]
      exact scopeJoin_held ..

example : (EntityMeta.apply ⟨[⟨"ClientName", "client_name", .str, .str "a"⟩], ["ClientName"], [("vendor", .str "a")]⟩
      [("vendor", [("value", .str "b")]), ("client_name", [("value", .str "b")])]) =
    .ok ⟨[⟨"ClientName", "client_name", .str, .str "b"⟩], ["ClientName"], [("vendor", .str "a")]⟩ := rfl

/-! ## C58 -/

/-- C58 is false: a `default` for an absent string attribute is applied to metadata as parsed, but not after a trip through the
cache, which marks every scalar attribute as set. -/
theorem C58_cache_independent_refuted :
    ¬ ∀ (m : Metadata) (p : Policies) (t : EType), ((m.applyPolicy (some p)).toOption.bind (fun r => r.known t)).map EntityMeta.fields =
      ((m.viaCache.applyPolicy (some p)).toOption.bind (fun r => r.known t)).map EntityMeta.fields := by
  intro h
  have := h (Ex.polLeaf.metadata.getD Metadata.empty) (Ex.rpPol [("name", [("default", .str "n")])]) .rp
  have h1 : (((Ex.polLeaf.metadata.getD Metadata.empty).applyPolicy (some (Ex.rpPol [("name", [("default", .str "n")])]))).toOption.bind
      (fun r => r.known .rp)).map EntityMeta.fields =
    some [⟨"Scopes", "scopes", .slice .str, sl ["x", "a", "b"]⟩, ⟨"Name", "name", .str, .str "n"⟩] := by rfl
  have h2 : (((Ex.polLeaf.metadata.getD Metadata.empty).viaCache.applyPolicy (some (Ex.rpPol [("name", [("default", .str "n")])]))).toOption.bind
      (fun r => r.known .rp)).map EntityMeta.fields =
    some [⟨"Scopes", "scopes", .slice .str, sl ["x", "a", "b"]⟩, ⟨"Name", "name", .str, .str ""⟩] := by rfl
  rw [h1, h2] at this
  revert this
  decide

/-- C58 is false in the dangerous direction too: for `oauth_client` metadata from the cache nothing counts as set, so
`subset_of`, `superset_of` and `one_of` are no longer enforced. -/
theorem C58_cache_restrictions_lost_refuted :
    ∃ (m : Metadata) (p : Policies), (∀ t, Policy.verify (p.known t) = .ok ()) ∧ m.applyPolicy (some p) = .error .error ∧
      ∃ r, m.viaCache.applyPolicy (some p) = .ok r :=
  ⟨⟨fun t => if t = .client then some ⟨[⟨"ApplicationType", "application_type", .str, .str "native"⟩], ["ApplicationType"], []⟩ else none, none⟩,
   ⟨fun t => if t = .client then [("application_type", [("one_of", jl ["web"])])] else [], []⟩,
   (by intro t; cases t <;> rfl), rfl, _, rfl⟩

/-- The set-flag plays no role for an entry that has a non-null `value`, or none of `default`, `one_of`, `subset_of` and
`superset_of`. -/
def FlagFree (e : Entry) : Prop :=
  (∃ v, e.get "value" = some v ∧ v ≠ .nil) ∨
  (e.get "default" = none ∧ e.get "one_of" = none ∧ e.get "subset_of" = none ∧ e.get "superset_of" = none)

theorem flagFree_apply {e : Entry} (h : FlagFree e) (v : Val) (b b' : Bool) : e.applyTo v b = e.applyTo v b' := by
  have hstep : ∀ c n, n = "value" ∨ n = "add" ∨ n = "essential" →
      ((applyStep e e.essential ⟨c, b⟩ n).map Cur.v = (applyStep e e.essential ⟨c, b'⟩ n).map Cur.v) := by
    rintro c n (rfl | rfl | rfl)
    · unfold applyStep
      cases e.get "value" with
      | none => rfl
      | some x => rfl
    · unfold applyStep
      cases e.get "add" with
      | none => rfl
      | some x =>
        show (applyAdd ⟨c, b⟩ x).map Cur.v = (applyAdd ⟨c, b'⟩ x).map Cur.v
        unfold applyAdd
        dsimp only
        split
        · rfl
        · split
          · rfl
          · cases reflectUnion c x <;> rfl
    · unfold applyStep
      cases e.get "essential" with
      | none => rfl
      | some x =>
        show (applyEssential ⟨c, b⟩ x).map Cur.v = (applyEssential ⟨c, b'⟩ x).map Cur.v
        unfold applyEssential
        dsimp only
        split
        · rfl
        · split <;> rfl
  unfold Entry.applyTo Entry.applyCur
  rcases h with ⟨x, hx, hn⟩ | ⟨h1, h2, h3, h4⟩
  · have : ∀ b, applyLoop e e.essential operatorOrder ⟨v, b⟩ =
        (applyValue ⟨v, b⟩ x >>= fun c => applyLoop e e.essential (operatorOrder.drop 1) c) := by
      intro b
      show (applyStep e e.essential ⟨v, b⟩ "value" >>= _) = _
      unfold applyStep
      rw [hx]
      rfl
    rw [this b, this b']
    rfl
  · have hid : ∀ c n, e.get n = none → applyStep e e.essential c n = .ok c := by
      intro c n hn
      unfold applyStep
      rw [hn]
    have hl : ∀ b, applyLoop e e.essential operatorOrder ⟨v, b⟩ =
        (applyStep e e.essential ⟨v, b⟩ "value" >>= fun c => applyStep e e.essential c "add" >>= fun c =>
          applyStep e e.essential c "essential") := by
      intro b
      show (applyStep e e.essential ⟨v, b⟩ "value" >>= fun c => applyStep e e.essential c "add" >>= fun c =>
        applyStep e e.essential c "default" >>= fun c => applyStep e e.essential c "one_of" >>= fun c =>
        applyStep e e.essential c "subset_of" >>= fun c => applyStep e e.essential c "superset_of" >>= fun c =>
        applyStep e e.essential c "essential" >>= fun c => .ok c) = _
      congr 1
      funext c
      congr 1
      funext c
      rw [hid c _ h1]
      show (applyStep e e.essential c "one_of" >>= _) = _
      rw [hid c _ h2]
      show (applyStep e e.essential c "subset_of" >>= _) = _
      rw [hid c _ h3]
      show (applyStep e e.essential c "superset_of" >>= _) = _
      rw [hid c _ h4]
      show (applyStep e e.essential c "essential" >>= fun c => .ok c) = _
      cases applyStep e e.essential c "essential" <;> rfl
    rw [hl b, hl b']
    have hess : ∀ c c' : Cur, c.v = c'.v → (applyStep e e.essential c "essential").map Cur.v =
        (applyStep e e.essential c' "essential").map Cur.v := by
      rintro ⟨c, x⟩ ⟨c', x'⟩ rfl
      unfold applyStep
      cases e.get "essential" with
      | none => rfl
      | some y =>
        show (applyEssential ⟨c, x⟩ y).map Cur.v = (applyEssential ⟨c, x'⟩ y).map Cur.v
        unfold applyEssential
        dsimp only
        split
        · rfl
        · split <;> rfl
    have hadd : ∀ c c' : Cur, c.v = c'.v → (applyStep e e.essential c "add").map Cur.v =
        (applyStep e e.essential c' "add").map Cur.v := by
      rintro ⟨c, x⟩ ⟨c', x'⟩ rfl
      unfold applyStep
      cases e.get "add" with
      | none => rfl
      | some y =>
        show (applyAdd ⟨c, x⟩ y).map Cur.v = (applyAdd ⟨c, x'⟩ y).map Cur.v
        unfold applyAdd
        dsimp only
        split
        · rfl
        · split
          · rfl
          · cases reflectUnion c y <;> rfl
    have hbind : ∀ (x y : Res Cur) (f : Cur → Res Cur), x.map Cur.v = y.map Cur.v →
        (∀ c c' : Cur, c.v = c'.v → (f c).map Cur.v = (f c').map Cur.v) → (x >>= f).map Cur.v = (y >>= f).map Cur.v := by
      intro x y f hxy hf
      cases x with
      | error a => cases y with
        | error a' => cases hxy; rfl
        | ok c => cases hxy
      | ok c => cases y with
        | error a' => cases hxy
        | ok c' =>
          refine hf c c' ?_
          have : (Except.ok c.v : Res Val) = Except.ok c'.v := hxy
          exact Except.ok.inj this
    refine hbind _ _ _ (hstep v "value" (.inl rfl)) ?_
    intro c c' hc
    exact hbind _ _ _ (hadd c c' hc) hess

/-- C58 where it holds: for every attribute, the policy has no entry, or one in which the set-flag plays no role, or the flag
survives the cache. Then applying the policies after a cache round trip gives the same attribute values, and the same failures.
Missing: the two refuted cases (absent scalars with `default` and the restrictions; `oauth_client` and
`oauth_authorization_server`). -/
theorem C58_cache_independent_partial (m : Metadata) (p : Policies)
    (h : ∀ t em em', m.known t = some em → m.viaCache.known t = some em' → ∀ f ∈ em.fields,
      (∀ e, AMap.get (p.known t) f.tag = some e → FlagFree e) ∨ em'.wasSet.contains f.name = em.wasSet.contains f.name) :
    (∀ r, m.applyPolicy (some p) = .ok r → ∃ r', m.viaCache.applyPolicy (some p) = .ok r' ∧ r'.extra = r.extra ∧
      ∀ t, (r'.known t).map EntityMeta.fields = (r.known t).map EntityMeta.fields) ∧
    (∀ e, m.applyPolicy (some p) = .error e → m.viaCache.applyPolicy (some p) = .error e) := by
  have hfs : ∀ (q : Policy) (ws ws' : List String) (fs : List Field),
      (∀ f ∈ fs, (∀ e, AMap.get q f.tag = some e → FlagFree e) ∨ ws'.contains f.name = ws.contains f.name) →
      applyFields q ws' fs = applyFields q ws fs := by
    intro q ws ws' fs
    induction fs with
    | nil => intro _; rfl
    | cons f fs ih =>
      intro hh
      rw [applyFields, applyFields, ih (fun g hg => hh g (by simp [hg]))]
      have : applyField q ws' f = applyField q ws f := by
        unfold applyField
        cases hg : AMap.get q f.tag with
        | none => rfl
        | some e =>
          dsimp only
          rcases hh f (by simp) with h1 | h1
          · rw [flagFree_apply (h1 e hg) f.val (ws'.contains f.name) (ws.contains f.name)]
          · rw [h1]
      rw [this]
  have hvc : ∀ t, (m.known t = none ∧ m.viaCache.known t = none) ∨
      ∃ em em', m.known t = some em ∧ m.viaCache.known t = some em' ∧ em'.fields = em.fields := by
    intro t
    cases hm : m.known t with
    | none => left; cases t <;> simp [Metadata.viaCache, hm]
    | some em =>
      right
      cases t <;> simp [Metadata.viaCache, hm, EntityMeta.viaCachePlain, EntityMeta.viaCachePtrs]
  have hk : ∀ ts, (∀ r, applyKnown m p ts = .ok r → ∃ r', applyKnown m.viaCache p ts = .ok r' ∧
        ∀ t, (r' t).map EntityMeta.fields = (r t).map EntityMeta.fields) ∧
      (∀ e, applyKnown m p ts = .error e → applyKnown m.viaCache p ts = .error e) := by
    intro ts
    induction ts with
    | nil => exact ⟨fun r hr => by cases hr; exact ⟨_, rfl, fun _ => rfl⟩, fun e he => by cases he⟩
    | cons t ts ih =>
      rw [applyKnown, applyKnown]
      rcases hvc t with ⟨h1, h2⟩ | ⟨em, em', h1, h2, h3⟩
      · rw [h1, h2]
        dsimp only
        constructor
        · intro r hr
          obtain ⟨q, hq, hr⟩ := bind_ok hr
          cases hr
          obtain ⟨q', hq', he⟩ := ih.1 q hq
          rw [hq']
          refine ⟨_, rfl, ?_⟩
          intro u
          dsimp only
          split
          · rfl
          · exact he u
        · intro e he
          cases hq : applyKnown m p ts with
          | error e' => rw [hq] at he; cases he; rw [ih.2 _ hq]; rfl
          | ok q => rw [hq] at he; cases he
      · rw [h1, h2]
        dsimp only
        have heq := hfs (p.known t) em.wasSet em'.wasSet em.fields (h t em em' h1 h2)
        unfold EntityMeta.apply
        rw [h3, heq]
        cases hf : applyFields (p.known t) em.wasSet em.fields with
        | error e' =>
          constructor
          · intro r hr; cases hr
          · intro e he; cases he; rfl
        | ok fs =>
          constructor
          · intro r hr
            obtain ⟨x, hx, hr⟩ := bind_ok hr
            cases hx
            obtain ⟨q, hq, hr⟩ := bind_ok hr
            cases hr
            obtain ⟨q', hq', he⟩ := ih.1 q hq
            rw [hq']
            refine ⟨_, rfl, ?_⟩
            intro u
            dsimp only
            split
            · rfl
            · exact he u
          · intro e he
            cases hq : applyKnown m p ts with
            | error e' => rw [hq] at he; cases he; rw [ih.2 _ hq]; rfl
            | ok q => rw [hq] at he; cases he
  have hx : m.viaCache.extra = m.extra := rfl
  unfold Metadata.applyPolicy
  dsimp only
  rw [hx]
  constructor
  · intro r hr
    obtain ⟨k, hk', hr⟩ := bind_ok hr
    obtain ⟨x, hx', hr⟩ := bind_ok hr
    cases hr
    obtain ⟨k', hk'', he⟩ := (hk EType.all).1 k hk'
    rw [hk'', hx']
    exact ⟨_, rfl, rfl, he⟩
  · intro e he
    cases hq : applyKnown m p EType.all with
    | error e' => rw [hq] at he; cases he; rw [(hk _).2 _ hq]; rfl
    | ok k =>
      obtain ⟨k', hk'', _⟩ := (hk EType.all).1 k hq
      rw [hq] at he
      rw [hk'']
      cases hxx : applyExtra p.extra (m.extra.getD []) with
      | error e' => rw [hxx] at he; cases he; rfl
      | ok x => rw [hxx] at he; cases he

/-- A case with a present list attribute under `subset_of` and an absent string attribute under `value`. -/
example : ∀ t em em', (Ex.polLeaf.metadata.getD Metadata.empty).known t = some em →
    (Ex.polLeaf.metadata.getD Metadata.empty).viaCache.known t = some em' → ∀ f ∈ em.fields,
      (∀ e, AMap.get ((Ex.rpPol [("scopes", [("subset_of", jl ["a"])]), ("name", [("value", .str "z")])]).known t) f.tag = some e → FlagFree e) ∨
        em'.wasSet.contains f.name = em.wasSet.contains f.name := by
  intro t em em' h1 h2
  cases t <;> simp [Ex.polLeaf] at h1
  subst h1
  simp [Metadata.viaCache, Ex.polLeaf] at h2
  subst h2
  intro f hf
  simp at hf
  rcases hf with rfl | rfl
  · right; decide
  · left
    intro e he
    cases he
    exact .inl ⟨_, rfl, by simp⟩

/-- There is a value that is kept in the cache: not `nil`, a nil map, a nil pointer or a nil slice. -/
def Kept (v : Val) : Prop := v ≠ .nil ∧ v ≠ .obj none ∧ v ≠ .ptr none ∧ ∀ t xs, v ≠ .slice t true xs

theorem kept_isNilRef {v : Val} : Kept v ↔ v.isNilRef = false := by
  unfold Kept
  cases v with
  | obj o => cases o <;> simp [Val.isNilRef]
  | ptr o => cases o <;> simp [Val.isNilRef]
  | slice t b xs => cases b <;> simp [Val.isNilRef]
  | _ => simp [Val.isNilRef]

/-- C58 where it holds, in terms of the metadata as parsed: the policy has no entry for an attribute, or one in which the set-flag plays no role, or the attribute belongs to an
entity type other than `oauth_client` and `oauth_authorization_server` and is set if and only if it has a value that is not a nil list, map or pointer. Missing: as above. -/
theorem C58_stated_partial (m : Metadata) (p : Policies)
    (h : ∀ t em, m.known t = some em → ∀ f ∈ em.fields, (∀ e, AMap.get (p.known t) f.tag = some e → FlagFree e) ∨
      (t ≠ .as ∧ t ≠ .client ∧ (∀ g ∈ em.fields, g.name = f.name → g = f) ∧ f.name ∉ em.extra.keys ∧ (f.name ∈ em.wasSet ↔ Kept f.val))) :
    (∀ r, m.applyPolicy (some p) = .ok r → ∃ r', m.viaCache.applyPolicy (some p) = .ok r' ∧ r'.extra = r.extra ∧
      ∀ t, (r'.known t).map EntityMeta.fields = (r.known t).map EntityMeta.fields) ∧
    (∀ e, m.applyPolicy (some p) = .error e → m.viaCache.applyPolicy (some p) = .error e) := by
  apply C58_cache_independent_partial m p
  intro t em em' h1 h2 f hf
  rcases h t em h1 f hf with h3 | ⟨h3, h4, h5, h6, h7⟩
  · exact .inl h3
  · right
    have he : em' = em.viaCachePtrs := by
      cases t <;> simp_all [Metadata.viaCache]
    rw [he, Bool.eq_iff_iff, List.contains_iff_mem, List.contains_iff_mem, h7, kept_isNilRef]
    unfold EntityMeta.viaCachePtrs
    simp only [List.mem_append, List.mem_map, List.mem_filter, Bool.not_eq_true']
    constructor
    · rintro (⟨g, ⟨hg, hn⟩, he⟩ | hk)
      · rw [← h5 g hg he]; exact hn
      · exact absurd hk h6
    · intro hn
      exact .inl ⟨f, ⟨hf, hn⟩, rfl⟩

/-- The hypotheses are met by metadata with an attribute that is absent and one that is present, and a policy with a default for both. -/
example : ∀ t em, (⟨fun t => if t = .rp then some ⟨[⟨"Scopes", "scopes", .slice .str, .slice .str true []⟩, ⟨"Contacts", "contacts", .slice .str, sl ["a"]⟩], ["Contacts"], []⟩ else none,
      none⟩ : Metadata).known t = some em → ∀ f ∈ em.fields,
      (∀ e, AMap.get ((Ex.rpPol [("scopes", [("default", jl ["a"])]), ("contacts", [("default", jl ["b"])])]).known t) f.tag = some e → FlagFree e) ∨
      (t ≠ .as ∧ t ≠ .client ∧ (∀ g ∈ em.fields, g.name = f.name → g = f) ∧ f.name ∉ em.extra.keys ∧ (f.name ∈ em.wasSet ↔ Kept f.val)) := by
  intro t em h1
  cases t <;> simp at h1
  subst h1
  intro f hf
  simp only [List.mem_cons, List.not_mem_nil, or_false] at hf
  right
  rcases hf with rfl | rfl
  · refine ⟨by decide, by decide, by decide, by decide, ?_⟩
    rw [kept_isNilRef]
    decide
  · refine ⟨by decide, by decide, by decide, by decide, ?_⟩
    rw [kept_isNilRef]
    decide

/-- There the default is applied to the absent attribute, before and after the cache. -/
example : let m : Metadata := ⟨fun t => if t = .rp then some ⟨[⟨"Scopes", "scopes", .slice .str, .slice .str true []⟩, ⟨"Contacts", "contacts", .slice .str, sl ["a"]⟩], ["Contacts"], []⟩
      else none, none⟩
    let p := Ex.rpPol [("scopes", [("default", jl ["a"])]), ("contacts", [("default", jl ["b"])])]
    ((m.applyPolicy (some p)).toOption.bind (fun r => r.known .rp)).map EntityMeta.fields =
      some [⟨"Scopes", "scopes", .slice .str, sl ["a"]⟩, ⟨"Contacts", "contacts", .slice .str, sl ["a"]⟩] ∧
    ((m.viaCache.applyPolicy (some p)).toOption.bind (fun r => r.known .rp)).map EntityMeta.fields =
      some [⟨"Scopes", "scopes", .slice .str, sl ["a"]⟩, ⟨"Contacts", "contacts", .slice .str, sl ["a"]⟩] := by
  exact ⟨rfl, rfl⟩

/-! ## C59 -/

/-- C59 is false: the leaf has a list attribute with room in its array (as `encoding/json` leaves it: three elements in an
array of four cells, here one in two); the chain resolved first adds "a", the chain resolved second adds "b". The first result
then reads "b". -/
theorem C59_no_interference_refuted :
    ¬ ∀ (grow : Nat → Nat) (h : Heap) (s : GoSlice) (as bs : List Val), h.Valid s →
      let r1 := h.union grow s as
      let r2 := r1.1.union grow s bs
      r2.1.read r1.2 = r1.1.read r1.2 := by
  intro h
  have := h (fun n => n) [[.str "x", .nil]] ⟨0, 1⟩ [.str "a"] [.str "b"] ⟨by decide, by decide⟩
  revert this
  decide

/-- Resolve one chain after the other, each adding its own elements to the leaf's attribute; the memory afterwards and the
resulting slices. -/
def resolveAll (grow : Nat → Nat) (h : Heap) (s : GoSlice) : List (List Val) → Heap × List GoSlice
  | [] => (h, [])
  | bs :: bss =>
    let r := h.union grow s bs
    let q := resolveAll grow r.1 s bss
    (q.1, r.2 :: q.2)

/-- What adding `bs` to a list attribute `xs` should give. -/
def added (xs bs : List Val) : List Val := if bs.isEmpty then xs else if xs.isEmpty then bs else unionLoop xs bs

theorem resolveAll_spec (grow : Nat → Nat) (s : GoSlice) : ∀ (bss : List (List Val)) (h : Heap), h.Valid s →
    ((resolveAll grow h s bss).1.read s = h.read s) ∧
    (∀ t, h.Valid t → h.cap s ≤ s.len ∨ s.len = 0 → (resolveAll grow h s bss).1.read t = h.read t) ∧
    (h.cap s ≤ s.len ∨ s.len = 0 → ∀ (i : Nat) bs, bss[i]? = some bs → ∃ t, (resolveAll grow h s bss).2[i]? = some t ∧
      (resolveAll grow h s bss).1.read t = added (h.read s) bs) := by
  intro bss
  induction bss with
  | nil => intro h hs; exact ⟨rfl, fun _ _ _ => rfl, fun _ i bs hb => by cases hb⟩
  | cons bs bss ih =>
    intro h hs
    obtain ⟨u1, u2, u3, u4⟩ := h.union_spec grow s bs hs
    obtain ⟨i1, i2, i3⟩ := ih _ (u3 s hs)
    have hread : (h.union grow s bs).1.read s = h.read s := u4 s hs (.inr (.inl (Nat.le_refl _)))
    have hcap : h.cap s ≤ s.len ∨ s.len = 0 → (h.union grow s bs).1.cap s ≤ s.len ∨ s.len = 0 := by
      rintro (hc | hc)
      · left
        have harr : ∀ (bs : List Val) (h : Heap) (out : GoSlice) (t : GoSlice), h.Valid out → h.Valid t →
            h.cap out ≤ out.len ∨ t.arr ≠ out.arr → (Heap.unionLoop grow h out bs).1.cap t = h.cap t := by
          intro bs
          induction bs with
          | nil => intros; rfl
          | cons b bs ih' =>
            intro h out t ho ht hd
            rw [Heap.unionLoop]
            split
            · exact ih' h out t ho ht hd
            · dsimp only
              obtain ⟨_, a2, _, a4, _, a6, a7⟩ := h.append_spec grow out b ho
              have hct : (h.append grow out b).1.cap t = h.cap t := by
                unfold Heap.append Heap.cap
                split
                · rw [Heap.arrOf_set]
                  split
                  · rename_i hl hh
                    rcases hd with hd | hd
                    · exact absurd hd (by unfold Heap.cap at *; omega)
                    · exact absurd hh.1 hd
                  · rfl
                · rw [Heap.arrOf_append _ _ _ ht.1]
              rw [ih' _ _ t a2 (a4 t ht) ?_, hct]
              rcases hd with hd | hd
              · right; have := a7 hd; have := ht.1; omega
              · rcases a6 with e | e
                · exact .inr (by rw [e]; exact hd)
                · right; have := ht.1; omega
        unfold Heap.union
        split
        · exact hc
        · split
          · show Heap.cap (h ++ [bs]) s ≤ s.len
            unfold Heap.cap
            rw [Heap.arrOf_append _ _ _ hs.1]
            exact hc
          · rw [harr bs h s s hs hs (.inl hc)]
            exact hc
      · exact .inr hc
    refine ⟨i1.trans hread, ?_, ?_⟩
    · intro t ht hc
      show (resolveAll grow (h.union grow s bs).1 s bss).1.read t = _
      rw [i2 t (u3 t ht) (hcap hc)]
      exact u4 t ht (hc.elim (fun e => .inr (.inr (.inl e))) (fun e => .inr (.inr (.inr e))))
    · intro hc i cs hi
      cases i with
      | zero =>
        simp at hi
        subst hi
        refine ⟨_, rfl, ?_⟩
        show (resolveAll grow (h.union grow s bs).1 s bss).1.read _ = _
        rw [i2 _ u2 (hcap hc), u1]
        unfold added
        have hemp : (h.read s).isEmpty = true ↔ s.len = 0 := by
          unfold Heap.read
          have := hs.2
          unfold Heap.cap at this
          rw [List.isEmpty_iff, List.take_eq_nil_iff]
          constructor
          · rintro (e | e)
            · exact e
            · rw [e] at this; simpa using this
          · exact .inl
        by_cases he : s.len = 0
        · rw [if_pos he, if_pos (hemp.mpr he)]
        · rw [if_neg he, if_neg (fun e => he (hemp.mp e))]
      | succ i =>
        simp at hi
        obtain ⟨t, ht, hr⟩ := i3 (hcap hc) i cs hi
        refine ⟨t, by simpa [resolveAll] using ht, ?_⟩
        show (resolveAll grow (h.union grow s bs).1 s bss).1.read t = _
        rw [hr, hread]

/-- C59 where it holds: however many chains are resolved with the same leaf, the leaf's own attribute keeps its value; and if
the attribute's array has no spare cells (or the attribute is empty), every single result still reads, at the end, as what adding its
own elements gives. Missing: arrays with spare cells (refuted). -/
theorem C59_no_interference_partial (grow : Nat → Nat) (h : Heap) (s : GoSlice) (hs : h.Valid s) (bss : List (List Val)) :
    (resolveAll grow h s bss).1.read s = h.read s ∧
    (h.cap s ≤ s.len ∨ s.len = 0 → ∀ (i : Nat) bs, bss[i]? = some bs → ∃ t, (resolveAll grow h s bss).2[i]? = some t ∧
      (resolveAll grow h s bss).1.read t = added (h.read s) bs) :=
  ⟨(resolveAll_spec grow s bss h hs).1, (resolveAll_spec grow s bss h hs).2.2⟩

/-- The memory model agrees with the value model used everywhere else: right after a single resolution, the result reads as
the result of `add` on values. -/
theorem C59_values_agree (grow : Nat → Nat) (h : Heap) (s : GoSlice) (hs : h.Valid s) (bs : List Val) (isNil n : Bool)
    (hb : ∀ b ∈ bs, fitsElem .str b = true) :
    ∃ n', reflectUnion (.slice .str isNil (h.read s)) (.slice .any n bs) =
      .ok (.slice .str n' ((h.union grow s bs).1.read (h.union grow s bs).2)) := by
  rw [(h.union_spec grow s bs hs).1]
  have hemp : (h.read s).isEmpty = true ↔ s.len = 0 := by
    unfold Heap.read
    have := hs.2
    unfold Heap.cap at this
    rw [List.isEmpty_iff, List.take_eq_nil_iff]
    constructor
    · rintro (e | e)
      · exact e
      · rw [e] at this; simpa using this
    · exact .inl
  have hc := cast_list (e := .str) (by decide) (n := n) hb (t := ⟨.str, isNil, h.read s⟩) rfl
  show ∃ n', Except.map Slc.toVal (unionSlc (some ⟨.str, isNil, h.read s⟩) (some ⟨.any, n, bs⟩)) = _
  unfold unionSlc
  dsimp only
  by_cases hbe : bs.isEmpty = true
  · rw [if_pos hbe, if_pos hbe]
    exact ⟨_, rfl⟩
  · rw [if_neg hbe, if_neg hbe, if_pos (by simp), hc]
    simp only [bind, Except.bind]
    by_cases he : s.len = 0
    · rw [if_pos (hemp.mpr he), if_pos he]
      exact ⟨_, rfl⟩
    · rw [if_neg (fun e => he (hemp.mp e)), if_neg he]
      exact ⟨_, rfl⟩

/-- Three chains adding to a full array: each keeps its own result. -/
example : let r := resolveAll (fun n => n) [[.str "x"]] ⟨0, 1⟩ [[.str "a"], [.str "b", .str "x"], []]
    r.2.map r.1.read = [[.str "x", .str "a"], [.str "x", .str "b"], [.str "x"]] := by decide

end Oidfed
