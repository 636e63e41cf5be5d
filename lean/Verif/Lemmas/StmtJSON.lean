import Verif.Spec.StmtJSON
import Verif.Props.MetaWrite
import Verif.Props.Jws
import Verif.Props.Unixtime
import Verif.Props.JSON
import Verif.Lemmas.Issue
/-!
# Lemmas about entity statements as JSON
-/

namespace Oidfed
open Spec

/-- Decoding when the outcome for each member is known. -/
theorem decodeKnown_as {tags : List String} {dec : FieldDec} {l : JObj} {g : String → Option JV} (hn : (l.map Prod.fst).Nodup)
    (h : ∀ kv ∈ l, (kv.1 ∈ tags ∧ dec kv.1 none kv.2 = some (g kv.1)) ∨ fieldFor tags kv.1 = none)
    (hg : ∀ t, (t ∉ tags ∨ t ∉ l.map Prod.fst) → g t = none) :
    decodeKnown tags dec l (fun _ => none) = some g := by
  obtain ⟨g', hg'⟩ := decodeKnown_ok tags dec l (fun _ => none) hn (by
    intro kv hkv
    rcases h kv hkv with ⟨h1, h2⟩ | h1
    · exact .inl ⟨h1, by rw [h2]; rfl⟩
    · exact .inr h1)
  obtain ⟨h1, h2⟩ := decodeKnown_exact tags dec l _ g' hn (by
    intro kv hkv
    rcases h kv hkv with ⟨h1, _⟩ | h1
    · exact .inl h1
    · exact .inr h1) hg'
  rw [hg']
  congr 1
  funext t
  by_cases ht : t ∉ tags ∨ t ∉ l.map Prod.fst
  · rw [h2 t ht, hg t ht]
  · have ht1 : t ∈ tags := Classical.byContradiction fun hc => ht (.inl hc)
    have ht2 : t ∈ l.map Prod.fst := Classical.byContradiction fun hc => ht (.inr hc)
    obtain ⟨kv, hkv, rfl⟩ := List.mem_map.mp ht2
    have h3 := h1 kv hkv ht1
    rcases h kv hkv with ⟨_, h4⟩ | h4
    · rw [h4] at h3; exact (Option.some.inj h3).symm
    · unfold fieldFor at h4; rw [if_pos ht1] at h4; cases h4

/-- Reading a plain struct. -/
theorem fields_roundtrip {tags : List String} (ht : tags.Nodup) {dec : FieldDec} {f g : String → Option JV}
    (h : ∀ t ∈ tags, ∀ v, f t = some v → dec t none v = some (g t)) (hg : ∀ t, (t ∉ tags ∨ f t = none) → g t = none) :
    decodeKnown tags dec (writeFields tags f) (fun _ => none) = some g := by
  have hn : ((writeFields tags f).map Prod.fst).Nodup := by
    have := explicit_keys tags f
    exact this.nodup ht
  refine decodeKnown_as hn ?_ ?_
  · intro kv hkv
    have h1 := jget_of_mem hn hkv
    unfold writeFields at h1
    rw [explicit_get] at h1
    split at h1
    · exact .inl ⟨by assumption, h _ (by assumption) _ h1⟩
    · cases h1
  · intro t ht'
    apply hg
    rcases ht' with h1 | h1
    · exact .inl h1
    · rw [← jget_none_iff] at h1
      unfold writeFields at h1
      rw [explicit_get] at h1
      split at h1
      · exact .inr h1
      · exact .inl (by assumption)

/-- Reading a struct with `Extra`. -/
theorem obj_roundtrip_as {tags : List String} (ht : tags.Nodup) {dec : FieldDec} {o : JStruct} (he : ExtraOk tags o.extra) {g : String → Option JV}
    (h : ∀ t ∈ tags, ∀ v, o.known t = some v → dec t none v = some (g t)) (hg : ∀ t, (t ∉ tags ∨ o.known t = none) → g t = none) :
    ∃ e, unmarshalObj tags dec (marshalObj tags o) = some ⟨g, e⟩ ∧ ∀ k, AMap.get e k = AMap.get o.extra k := by
  have hn := marshalObj_nodup ht he.1
  have hget := marshalObj_get ht he.1
  have hdis : ∀ t ∈ tags, AMap.get o.extra t = none := by
    intro t htt
    rw [jget_none_iff]
    intro hm
    exact he.2 t hm t htt rfl
  have hdec : decodeKnown tags dec (marshalObj tags o) (fun _ => none) = some g := by
    refine decodeKnown_as hn ?_ ?_
    · intro kv hkv
      have h1 := jget_of_mem hn hkv
      rw [hget] at h1
      by_cases hk : kv.1 ∈ tags
      · left
        rw [hdis _ hk, if_pos hk, Option.none_or] at h1
        exact ⟨hk, h _ hk _ h1⟩
      · right
        rw [if_neg hk, Option.or_none] at h1
        apply fieldFor_none
        exact he.2 kv.1 (List.mem_map.mpr ⟨_, jget_mem h1, rfl⟩)
    · intro t ht'
      apply hg
      rcases ht' with h1 | h1
      · exact .inl h1
      · rw [← jget_none_iff, hget] at h1
        by_cases hk : t ∈ tags
        · rw [hdis _ hk, if_pos hk, Option.none_or] at h1
          exact .inr h1
        · exact .inl hk
  unfold unmarshalObj
  rw [hdec]
  refine ⟨_, rfl, ?_⟩
  intro k
  rw [jget_filter (p := fun k => !(tags.contains k)), objMap_get, lastMember_nodup hn, hget]
  by_cases hk : k ∈ tags
  · simp [hk, hdis k hk]
  · simp [hk]

theorem sameMap_eq {α : Type} {a b : AMap α} : SameMap Eq a b ↔ ∀ k, AMap.get b k = AMap.get a k := by
  constructor
  · intro h k
    have := h k
    generalize AMap.get a k = x, AMap.get b k = y at this
    cases this with
    | some e => rw [e]
    | none => rfl
  · intro h k
    rw [h k]
    cases AMap.get a k with
    | none => exact .none
    | some _ => exact .some rfl

/-! ## Lists and maps -/

theorem decStrs_strs (l : Option (List String)) : decStrs (strsJV l) = some l := by
  cases l with
  | none => rfl
  | some l => simp only [strsJV, decStrs, decStrings_strs, Option.map_some]

theorem strsOf_omit (l : Option (List String)) : strsOf (omitStrs l) = if l = some [] then none else l := by
  cases l with
  | none => rfl
  | some l =>
    cases l with
    | nil => rfl
    | cons a l =>
      show (decStrs (strsJV (some (a :: l)))).getD none = _
      rw [decStrs_strs]
      simp

theorem omitStrs_ne_null {l : Option (List String)} {v : JV} (h : omitStrs l = some v) : v ≠ .null ∧ (decStrs v).isSome = true := by
  cases l with
  | none => cases h
  | some l =>
    simp only [omitStrs] at h
    split at h
    · cases h
    · cases h
      exact ⟨by simp [strsJV], by rw [decStrs_strs]; rfl⟩

theorem keepIf_some {ok : JV → Bool} {v : JV} (hv : v ≠ .null) (h : ok v = true) : keepIf ok v = some (some v) := by
  cases v with
  | null => exact absurd rfl hv
  | _ => simp only [keepIf, h, if_true]

theorem keepInto_none (join : JObj → JObj → JObj) (ok : JV → Bool) (v : JV) : keepInto join ok none v = keepIf ok v := by
  cases v <;> rfl

theorem keepInto_some {join : JObj → JObj → JObj} {ok : JV → Bool} {v : JV} (hv : v ≠ .null) (h : ok v = true) :
    keepInto join ok none v = some (some v) := by
  rw [keepInto_none]; exact keepIf_some hv h

theorem keep_omitStrs {l : Option (List String)} {v : JV} (h : omitStrs l = some v) : keepIf (fun v => (decStrs v).isSome) v = some (some v) := by
  obtain ⟨h1, h2⟩ := omitStrs_ne_null h
  exact keepIf_some h1 h2

theorem sameElems_omit (l : Option (List String)) : SameElems (strsOf (omitStrs l)) l := by
  rw [strsOf_omit]
  unfold SameElems
  split
  · rename_i h; rw [h]; rfl
  · rfl

theorem decMembers_get {α : Type} {f : JV → Option α} : ∀ {l : AMap JV} {r : AMap α}, decMembers f l = some r →
    (∀ k, AMap.get r k = (AMap.get l k).bind f) ∧ r.map Prod.fst = l.map Prod.fst := by
  intro l
  induction l with
  | nil => intro r h; simp only [decMembers, Option.some.injEq] at h; subst h; exact ⟨fun _ => rfl, rfl⟩
  | cons a l ih =>
    obtain ⟨k, v⟩ := a
    intro r h
    simp only [decMembers] at h
    split at h
    · rename_i x y hx hy
      cases h
      obtain ⟨h1, h2⟩ := ih hy
      refine ⟨?_, by simp [h2]⟩
      intro k'
      rw [jget_cons, jget_cons]
      split
      · simp [hx]
      · exact h1 k'
    · cases h

theorem decMembers_ok {α : Type} {f : JV → Option α} : ∀ {l : AMap JV}, (∀ kv ∈ l, (f kv.2).isSome) → ∃ r, decMembers f l = some r := by
  intro l
  induction l with
  | nil => intro _; exact ⟨[], rfl⟩
  | cons a l ih =>
    obtain ⟨k, v⟩ := a
    intro h
    obtain ⟨r, hr⟩ := ih (fun kv hkv => h kv (List.mem_cons_of_mem _ hkv))
    obtain ⟨x, hx⟩ := Option.isSome_iff_exists.mp (h (k, v) (List.mem_cons_self))
    simp only at hx
    exact ⟨(k, x) :: r, by simp only [decMembers, hx, hr]⟩

theorem jget_mapv {α β : Type} (g : α → β) (m : AMap α) (k : String) :
    AMap.get (m.map (fun kv => (kv.1, g kv.2))) k = (AMap.get m k).map g := by
  induction m with
  | nil => rfl
  | cons a m ih =>
    obtain ⟨k', v⟩ := a
    rw [List.map_cons, jget_cons, jget_cons]
    split
    · rfl
    · exact ih

/-- A map read back. -/
theorem map_roundtrip {α : Type} {R : α → α → Prop} {f : JV → Option α} {g : α → JV} {m : AMap α} (hm : m.WF)
    (h : ∀ kv ∈ m, ∃ a, f (g kv.2) = some a ∧ R kv.2 a) :
    ∃ r, decMap f (mapJV g m) = some r ∧ SameMap R m r := by
  have hn : ((m.map (fun kv => (kv.1, g kv.2))).map Prod.fst).Nodup := by
    rw [List.map_map]; exact hm
  have hget : ∀ k, AMap.get (objMap (sortMembers (m.map (fun kv => (kv.1, g kv.2))))) k = (AMap.get m k).map g := by
    intro k
    have hp := sortMembers_perm (m.map (fun kv => (kv.1, g kv.2)))
    rw [objMap_get, lastMember_nodup ((hp.map Prod.fst).nodup_iff.mpr hn), sorted_get hn, jget_mapv]
  obtain ⟨r, hr⟩ : ∃ r, decMembers f (objMap (sortMembers (m.map (fun kv => (kv.1, g kv.2))))) = some r := by
    apply decMembers_ok
    intro kv hkv
    have h1 := jget_of_mem (objMap_nodup _) hkv
    rw [hget] at h1
    cases hx : AMap.get m kv.1 with
    | none => rw [hx] at h1; cases h1
    | some x =>
      rw [hx] at h1
      obtain ⟨a, ha, _⟩ := h _ (jget_mem hx)
      rw [← Option.some.inj h1, ha]
      rfl
  have hall : (sortMembers (m.map (fun kv => (kv.1, g kv.2)))).all (fun kv => (f kv.2).isSome) = true := by
    rw [List.all_eq_true]
    intro kv hkv
    obtain ⟨kv', hkv', rfl⟩ := List.mem_map.mp ((sortMembers_perm _).mem_iff.mp hkv)
    obtain ⟨a, ha, _⟩ := h kv' hkv'
    simp only [ha, Option.isSome_some]
  refine ⟨r, by simp only [mapJV, decMap, hall, if_true]; exact hr, ?_⟩
  intro k
  rw [(decMembers_get hr).1 k, hget]
  cases hx : AMap.get m k with
  | none => exact .none
  | some x =>
    obtain ⟨a, ha, hR⟩ := h _ (jget_mem hx)
    simp only [Option.map_some, Option.bind_some, ha]
    exact .some hR

theorem mapJV_ne {α : Type} (g : α → JV) (m : AMap α) : mapJV g m ≠ .null := by simp [mapJV]

/-- A list read back. -/
theorem list_roundtrip {α : Type} {R : α → α → Prop} {f : JV → Option α} {g : α → JV} : ∀ {l : List α},
    (∀ x ∈ l, ∃ a, f (g x) = some a ∧ R x a) → ∃ r, decList f (l.map g) = some r ∧ SameList R l r := by
  intro l
  induction l with
  | nil => intro _; exact ⟨[], rfl, fun n => by simp only [List.getElem?_nil]; exact .none⟩
  | cons x l ih =>
    intro h
    obtain ⟨r, hr, hs⟩ := ih (fun y hy => h y (List.mem_cons_of_mem _ hy))
    obtain ⟨a, ha, hR⟩ := h x (List.mem_cons_self)
    refine ⟨a :: r, by simp only [List.map_cons, decList, ha, hr], ?_⟩
    intro n
    cases n with
    | zero => exact .some hR
    | succ n => exact hs n

/-! ## The parts of a statement -/

theorem strip_same {c : Constraints} (h : NoEmptyLists c) : c.strip = c := by
  obtain ⟨mp, nm, al⟩ := c
  obtain ⟨h1, h2⟩ := h
  simp only [Constraints.strip, noEmpty] at h1 h2 ⊢
  rw [if_neg h1]
  cases nm with
  | none => rfl
  | some n =>
    have := h2 n rfl
    simp only [Option.map_some, Naming.strip, noEmpty, if_neg this]

theorem decNaming_naming (n : Naming) : decNaming (namingJV n) = some n.strip := by
  have := fields_roundtrip (tags := namingTags) (by decide) (dec := fun _ _ v => keepIf (fun v => (decStrs v).isSome) v)
    (f := namingFields n) (g := namingFields n)
    (by
      intro t _ v hv
      rw [hv]
      unfold namingFields at hv
      split at hv
      · exact keep_omitStrs hv
      · split at hv
        · exact keep_omitStrs hv
        · cases hv)
    (by
      intro t ht
      rcases ht with ht | ht
      · unfold namingFields
        rw [if_neg (by rintro rfl; exact ht (by decide)), if_neg (by rintro rfl; exact ht (by decide))]
      · exact ht)
  simp only [namingJV, decNaming, this, Option.map_some]
  rw [show namingFields n "permitted" = omitStrs n.permitted from rfl, show namingFields n "excluded" = omitStrs (some n.excluded) from rfl,
    strsOf_omit, strsOf_omit]
  have e2 : (if some n.excluded = some [] then none else some n.excluded).getD [] = n.excluded := by
    split
    · rename_i h; rw [Option.some.inj h]; rfl
    · rfl
  rw [e2]
  rfl

theorem decInt_num {n : Int} (h : minDuration ≤ n ∧ n ≤ maxDuration) : decInt (.num (n : Rat)) = some n := by
  simp only [decInt, Rat.den_intCast, Rat.num_intCast, true_and]
  rw [if_pos h]

theorem decConstraints_constraints (c : Constraints) (hm : ∀ n, c.maxPath = some n → minDuration ≤ n ∧ n ≤ maxDuration) :
    decConstraints (constraintsJV c) = some c.strip := by
  have := fields_roundtrip (tags := constraintTags) (by decide) (dec := constraintDec) (f := constraintFields c) (g := constraintFields c)
    (by
      intro t _ v hv
      rw [hv]
      unfold constraintFields at hv
      unfold constraintDec
      split at hv
      · rename_i e
        rw [if_pos e]
        obtain ⟨n, hn, rfl⟩ := Option.map_eq_some_iff.mp hv
        exact keepIf_some (by simp) (by rw [decInt_num (hm n hn)]; rfl)
      · rename_i e
        rw [if_neg e]
        split at hv
        · rename_i e
          rw [if_pos e]
          obtain ⟨n, hn, rfl⟩ := Option.map_eq_some_iff.mp hv
          exact keepInto_some (ok := fun v => (decNaming v).isSome) (v := namingJV n) (by simp [namingJV]) (by simp only [decNaming_naming n]; rfl)
        · rename_i e
          rw [if_neg e]
          split at hv
          · exact keep_omitStrs hv
          · cases hv)
    (by
      intro t ht
      rcases ht with ht | ht
      · unfold constraintFields
        rw [if_neg (by rintro rfl; exact ht (by decide)), if_neg (by rintro rfl; exact ht (by decide)), if_neg (by rintro rfl; exact ht (by decide))]
      · exact ht)
  simp only [constraintsJV, decConstraints, this, Option.map_some]
  rw [show constraintFields c "max_path_length" = c.maxPath.map (fun n : Int => JV.num (n : Rat)) from rfl,
    show constraintFields c "naming_constraints" = c.naming.map namingJV from rfl,
    show constraintFields c "allowed_entity_types" = omitStrs c.allowedTypes from rfl, strsOf_omit]
  have e3 : (c.maxPath.map (fun n : Int => JV.num (n : Rat))).bind decInt = c.maxPath := by
    cases hp : c.maxPath with
    | none => rfl
    | some n => simp only [Option.map_some, Option.bind_some, decInt_num (hm n hp)]
  have e4 : (c.naming.map namingJV).bind decNaming = c.naming.map Naming.strip := by
    cases hp : c.naming with
    | none => rfl
    | some n => simp only [Option.map_some, Option.bind_some, decNaming_naming n]
  rw [e3, e4]
  rfl

theorem decPolicy_policy (p : JPolicy) (hp : p.WF) (he : ∀ ae ∈ p, ae.2.WF) : ∃ q, decPolicy (policyJV p) = some q ∧ SamePolicyJSON p q := by
  refine map_roundtrip hp ?_
  intro ae hae
  obtain ⟨r, hr, hs⟩ := map_roundtrip (R := Eq) (f := some) (g := id) (he ae hae) (fun kv _ => ⟨kv.2, rfl, rfl⟩)
  exact ⟨r, hr, hs⟩

theorem etype_find (t : EType) : EType.all.find? (fun u => u.tag == t.tag) = some t := by cases t <;> rfl

theorem etype_mem (t : EType) : t ∈ EType.all := by cases t <;> decide

theorem find_etype {tag : String} {t : EType} (h : EType.all.find? (fun u => u.tag == tag) = some t) : t.tag = tag := by
  have := List.find?_some h
  simpa using this

theorem samePolicy_empty : SamePolicyJSON [] [] := fun _ => .none

theorem decPolicies_policies (p : JPolicies) (hx : p.extra = []) (hw : ∀ t, (p.known t).WF ∧ ∀ ae ∈ p.known t, ae.2.WF) :
    ∃ q, decPolicies (policiesJV p) = some q ∧ SamePolicies p q := by
  have hk : ∀ tag v, p.struct.known tag = some v → v ≠ .null ∧ (decPolicy v).isSome = true := by
    intro tag v hv
    simp only [JPolicies.struct] at hv
    split at hv
    · cases hv
    · rename_i t ht
      split at hv
      · cases hv
      · cases hv
        obtain ⟨q, hq, _⟩ := decPolicy_policy (p.known t) (hw t).1 (hw t).2
        exact ⟨mapJV_ne _ _, by rw [hq]; rfl⟩
  have hrt := C56_known_partial (fun _ cur v => keepInto (· ++ ·) (fun v => (decPolicy v).isSome) cur v) p.struct (by simp [JPolicies.struct, hx])
    (by
      intro tag ht
      simp only [JPolicies.struct]
      split
      · rfl
      · rename_i t h
        exfalso
        apply ht
        rw [← find_etype h]
        cases t <;> decide)
    (by
      intro t _ v hv
      obtain ⟨h1, h2⟩ := hk t v hv
      exact keepInto_some (ok := fun v => (decPolicy v).isSome) h1 h2)
  simp only [policiesJV, decPolicies, hrt, Option.map_some]
  refine ⟨_, rfl, ?_, by rw [hx]; exact fun _ => .none⟩
  intro t
  simp only [JPolicies.struct, etype_find]
  split
  · rename_i h
    rw [List.isEmpty_iff.mp h]
    exact samePolicy_empty
  · obtain ⟨q, hq, hs⟩ := decPolicy_policy (p.known t) (hw t).1 (hw t).2
    rw [Option.bind_some, hq]
    exact hs

theorem metaOk_ok {opq : Opaque} {t : EType} {m : MStruct} (h : MetaOk opq t m) : m.Ok opq (metaFields t) :=
  ⟨h.extra.1, fun k hk f hf => h.extra.2 k hk f.tag (List.mem_map.mpr ⟨f, hf, rfl⟩), h.typed, h.nonnil⟩

/-- The metadata of every entity type was read into a new struct. -/
def JMetadata.Fresh (opq : Opaque) (m : JMetadata) : Prop := ∀ t s, m.known t = some s → ∃ x, readEntity opq t x = some s

theorem decMetadata_metadata (opq : Opaque) (hq : ∀ v w, opq .map v = some w → ∃ l, w = .obj l) (m : JMetadata)
    (he : ExtraOk (EType.all.map EType.tag) m.extra) (hm : ∀ t s, m.known t = some s → MetaOk opq t s) :
    ∃ m', decMetadata opq (metadataJV m) = some m' ∧ SameMetadata m m' ∧ m'.Fresh opq := by
  have ht : (EType.all.map EType.tag).Nodup := by decide
  have hget := marshalObj_get ht (o := ⟨metadataFields m, m.extra⟩) he.1
  have hn := marshalObj_nodup ht (o := ⟨metadataFields m, m.extra⟩) he.1
  have hdis : ∀ t ∈ EType.all.map EType.tag, AMap.get m.extra t = none := by
    intro t htt
    rw [jget_none_iff]
    intro hm
    exact he.2 t hm t htt rfl
  have hobj : ∀ t : EType, membersFor t (marshalObj (EType.all.map EType.tag) ⟨metadataFields m, m.extra⟩) =
      ((m.known t).map (fun s => .obj (writeMeta (metaFields t) s))).toList := by
    intro t
    have hmem : t.tag ∈ EType.all.map EType.tag := List.mem_map.mpr ⟨t, etype_mem t, rfl⟩
    rw [membersFor_exact hn, hget, hdis _ hmem, if_pos hmem, Option.none_or]
    · simp only [metadataFields, etype_find]
    · intro kv hkv e
      have h1 := jget_of_mem hn hkv
      rw [hget] at h1
      by_cases hk : kv.1 ∈ EType.all.map EType.tag
      · obtain ⟨u, _, hu⟩ := List.mem_map.mp hk
        rw [← hu] at e ⊢
        rw [etag_fold e]
      · rw [if_neg hk, Option.or_none] at h1
        exact absurd e.symm (he.2 kv.1 (List.mem_map.mpr ⟨_, jget_mem h1, rfl⟩) t.tag hmem)
  have hread : ∀ t : EType, ∃ r, typeSeq opq t ((m.known t).map (fun s => JV.obj (writeMeta (metaFields t) s))).toList none = some r ∧
      Option.Rel (SameMeta t) (m.known t) r ∧ ∀ s, r = some s → ∃ x, readEntity opq t x = some s := by
    intro t
    cases hk : m.known t with
    | none => exact ⟨none, rfl, .none, fun s hs => by cases hs⟩
    | some s =>
      obtain ⟨s', h1, h2, h3⟩ := write_read opq hq t s (metaOk_ok (hm t s hk))
      refine ⟨some s', ?_, .some ⟨h2, sameMap_eq.mpr h3⟩, fun u hu => ⟨_, by rw [h1, hu]⟩⟩
      simp only [Option.map_some, Option.toList_some, typeSeq, readType]
      unfold readEntity at h1
      rw [h1]
      rfl
  have hf : ∃ f : EType → Option MStruct, ∀ t, typeSeq opq t ((m.known t).map (fun s => JV.obj (writeMeta (metaFields t) s))).toList none = some (f t) ∧
      Option.Rel (SameMeta t) (m.known t) (f t) ∧ ∀ s, f t = some s → ∃ x, readEntity opq t x = some s :=
    ⟨fun t => (hread t).choose, fun t => (hread t).choose_spec⟩
  obtain ⟨f, hf⟩ := hf
  refine ⟨⟨f, (objMap (marshalObj (EType.all.map EType.tag) ⟨metadataFields m, m.extra⟩)).filter (fun kv => !((EType.all.map EType.tag).contains kv.1))⟩, ?_,
    ⟨fun t => (hf t).2.1, ?_⟩, fun t => (hf t).2.2⟩
  · simp only [metadataJV, decMetadata]
    refine readMetadata_iff.mpr ⟨fun t => ?_, rfl⟩
    rw [hobj t]
    exact (hf t).1
  · rw [sameMap_eq]
    intro k
    rw [jget_filter (p := fun k => !((EType.all.map EType.tag).contains k)), objMap_get, lastMember_nodup hn, hget]
    by_cases hk : k ∈ EType.all.map EType.tag
    · simp [hk, hdis k hk]
    · simp [hk]

theorem decInfo_info (i : MarkInfo) (h : ExtraOk infoTags i.extra) : ∃ a, decInfo (markInfoJV i) = some a ∧ SameInfo i a := by
  obtain ⟨e, h1, h2⟩ := obj_roundtrip_as (tags := infoTags) (by decide) (dec := fun _ cur v => decString cur v) (o := ⟨infoFields i, i.extra⟩)
    h (g := infoFields i)
    (by
      intro t _ v hv
      simp only at hv
      rw [hv]
      unfold infoFields at hv
      split at hv
      · cases hv; rfl
      · split at hv
        · cases hv; rfl
        · cases hv)
    (by
      intro t ht
      rcases ht with ht | ht
      · unfold infoFields
        rw [if_neg (by rintro rfl; exact ht (by decide)), if_neg (by rintro rfl; exact ht (by decide))]
      · exact ht)
  simp only [markInfoJV, decInfo, h1, Option.map_some]
  exact ⟨_, rfl, rfl, rfl, sameMap_eq.mpr h2⟩

theorem keys_read {K : KeyCodec} (hK : CodecOk K) (ks : Option (List JKey)) :
    ∃ r, unmarshalKeys K (marshalKeys K ks) = some r ∧ SameElems r ks := by
  obtain ⟨r, h1, h2, _⟩ := C97_same_keys K hK ks
  exact ⟨r, h1, h2⟩

/-- The key set of a field: what is decoded. -/
def keysField (K : KeyCodec) (ks : Option (List JKey)) : Option JV :=
  match ks with
  | none => none
  | some _ => some (marshalKeys K ks)

theorem keep_keys {K : KeyCodec} (hK : CodecOk K) (ks : Option (List JKey)) :
    keepIf (fun v => (unmarshalKeys K v).isSome) (marshalKeys K ks) = some (keysField K ks) := by
  cases ks with
  | none => rfl
  | some l =>
    obtain ⟨r, h, _⟩ := keys_read hK (some l)
    exact keepIf_some (by simp [marshalKeys]) (by rw [h]; rfl)

theorem keysField_read {K : KeyCodec} (hK : CodecOk K) (ks : Option (List JKey)) :
    SameElems ((keysField K ks).bind (fun v => (unmarshalKeys K v).getD none)) ks := by
  cases ks with
  | none => rfl
  | some l =>
    obtain ⟨r, h, hs⟩ := keys_read hK (some l)
    simp only [keysField, Option.bind_some, h, Option.getD_some]
    exact hs

theorem decOwner_owner {K : KeyCodec} (hK : CodecOk K) (o : OwnerInfo) : ∃ a, decOwner K (ownerJV K o) = some a ∧ SameOwner o a := by
  have := fields_roundtrip (tags := ownerTags) (by decide) (dec := ownerDec K) (f := ownerFields K o)
    (g := fun t => if t = "jwks" then keysField K o.jwks else ownerFields K o t)
    (by
      intro t _ v hv
      unfold ownerDec
      split
      · rename_i e
        subst e
        cases (show some (marshalKeys K o.jwks) = some v from hv)
        exact keep_keys hK _
      · rename_i e
        rw [hv]
        unfold ownerFields at hv
        split at hv
        · cases hv; rfl
        · cases hv)
    (by
      intro t ht
      rcases ht with ht | ht
      · unfold ownerFields
        rw [if_neg (by rintro rfl; exact ht (by decide)), if_neg (by rintro rfl; exact ht (by decide)), if_neg (by rintro rfl; exact ht (by decide))]
      · split
        · rename_i e; subst e; cases ht
        · exact ht)
  simp only [ownerJV, decOwner, this, Option.map_some]
  refine ⟨_, rfl, rfl, ?_⟩
  have := keysField_read hK o.jwks
  unfold SameElems at this ⊢
  rw [← this]
  rfl

theorem strOf_omit (s : String) : strOf (omitStr s) = s := by
  unfold omitStr
  split
  · rename_i h; rw [h]; rfl
  · rfl

theorem keep_omitStr {s : String} {v : JV} (h : omitStr s = some v) : decString none v = some (some v) := by
  unfold omitStr at h
  split at h
  · cases h
  · cases h; rfl

theorem timeOf_marshal (t : Time) (h : |t| ≤ 2 ^ 62) : |timeOf (some (.num (marshalTime t))) - t| < 2000 := by
  simp only [timeOf, read_time]
  exact C57_precision_partial t h

end Oidfed
