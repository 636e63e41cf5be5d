import Verif.Spec.JSON
/-!
# Facts about JSON objects with known and additional members
-/

namespace Oidfed

theorem jget_nil {α : Type} (k : String) : AMap.get ([] : AMap α) k = none := rfl

theorem jget_cons {α : Type} (k k' : String) (v : α) (l : AMap α) :
    AMap.get ((k, v) :: l) k' = if k = k' then some v else AMap.get l k' := rfl

theorem jget_mem {α : Type} {l : AMap α} {k : String} {v : α} (h : AMap.get l k = some v) : (k, v) ∈ l := by
  induction l with
  | nil => simp [jget_nil] at h
  | cons a l ih =>
    obtain ⟨k', v'⟩ := a
    rw [jget_cons] at h
    split at h
    · rename_i e; cases h; simp [e]
    · exact List.mem_cons_of_mem _ (ih h)

theorem jget_none_iff {α : Type} (l : AMap α) (k : String) : AMap.get l k = none ↔ k ∉ l.map Prod.fst := by
  induction l with
  | nil => simp [jget_nil]
  | cons a l ih =>
    obtain ⟨k', v'⟩ := a
    rw [jget_cons]
    split
    · rename_i e; simp [e]
    · rename_i e; rw [ih]; simp [Ne.symm e]

theorem jget_of_mem {α : Type} {l : AMap α} {k : String} {v : α} (hn : (l.map Prod.fst).Nodup) (h : (k, v) ∈ l) :
    AMap.get l k = some v := by
  induction l with
  | nil => cases h
  | cons a l ih =>
    obtain ⟨k', v'⟩ := a
    rw [jget_cons]
    simp only [List.map_cons, List.nodup_cons] at hn
    rcases List.mem_cons.mp h with h | h
    · cases h; simp
    · rw [if_neg]
      · exact ih hn.2 h
      · intro e; subst e; exact hn.1 (List.mem_map.mpr ⟨_, h, rfl⟩)

theorem jget_perm {α : Type} {l l' : AMap α} (hp : l.Perm l') (hn : (l.map Prod.fst).Nodup) (k : String) :
    AMap.get l k = AMap.get l' k := by
  have hn' : (l'.map Prod.fst).Nodup := (hp.map _).nodup_iff.mp hn
  cases h : AMap.get l k with
  | none =>
    symm
    rw [jget_none_iff] at h ⊢
    exact fun hm => h ((hp.map _).mem_iff.mpr hm)
  | some v => exact (jget_of_mem hn' (hp.mem_iff.mp (jget_mem h))).symm

theorem jget_append {α : Type} (l l' : AMap α) (k : String) :
    AMap.get (l ++ l') k = (AMap.get l k).or (AMap.get l' k) := by
  induction l with
  | nil => simp [jget_nil]
  | cons a l ih =>
    obtain ⟨k', v'⟩ := a
    simp only [List.cons_append, jget_cons]
    split <;> simp [ih]

theorem jget_filter {α : Type} (l : AMap α) (p : String → Bool) (k : String) :
    AMap.get (l.filter (fun kv => p kv.1)) k = if p k then AMap.get l k else none := by
  induction l with
  | nil => simp [jget_nil]
  | cons a l ih =>
    obtain ⟨k', v'⟩ := a
    simp only [List.filter_cons, jget_cons]
    by_cases hp : p k' = true
    · simp only [hp, if_true, jget_cons, ih]
      by_cases e : k' = k
      · subst e; simp [hp]
      · simp [e]
    · simp only [hp]
      by_cases e : k' = k
      · subst e; simp [hp, ih]
      · simp [e, ih]

/-- Value of the last member named `k`. -/
def lastMember (l : JObj) (k : String) : Option JV :=
  match l with
  | [] => none
  | (k', v) :: l => (lastMember l k).or (if k' = k then some v else none)

theorem lastMember_none_iff (l : JObj) (k : String) : lastMember l k = none ↔ k ∉ l.map Prod.fst := by
  induction l with
  | nil => simp [lastMember]
  | cons a l ih =>
    obtain ⟨k', v⟩ := a
    simp only [lastMember, Option.or_eq_none_iff, ih, List.map_cons, List.mem_cons, not_or]
    constructor
    · rintro ⟨h1, h2⟩
      refine ⟨fun e => ?_, h1⟩
      subst e; simp at h2
    · rintro ⟨h1, h2⟩
      exact ⟨h2, by simp [Ne.symm h1]⟩

theorem objMap_get (l : JObj) (k : String) : AMap.get (objMap l) k = lastMember l k := by
  induction l with
  | nil => rfl
  | cons a l ih =>
    obtain ⟨k', v⟩ := a
    simp only [objMap, lastMember]
    split
    · rename_i h
      rw [ih]
      by_cases e : k' = k
      · subst e
        have : lastMember l k' ≠ none := by
          rw [Ne, lastMember_none_iff]
          simp only [List.any_eq_true, beq_iff_eq] at h
          obtain ⟨x, hx, e⟩ := h
          exact fun hc => hc (List.mem_map.mpr ⟨x, hx, e⟩)
        cases h2 : lastMember l k' with
        | none => exact absurd h2 this
        | some x => simp
      · simp [e]
    · rename_i h
      rw [jget_cons, ih]
      by_cases e : k' = k
      · subst e
        have : lastMember l k' = none := by
          rw [lastMember_none_iff]
          intro hm
          apply h
          obtain ⟨x, hx, e⟩ := List.mem_map.mp hm
          simp only [List.any_eq_true, beq_iff_eq]
          exact ⟨x, hx, e⟩
        simp [this]
      · simp [e]

theorem lastMember_nodup {l : JObj} (h : (l.map Prod.fst).Nodup) (k : String) : lastMember l k = AMap.get l k := by
  induction l with
  | nil => rfl
  | cons a l ih =>
    obtain ⟨k', v⟩ := a
    simp only [List.map_cons, List.nodup_cons] at h
    simp only [lastMember, jget_cons, ih h.2]
    by_cases e : k' = k
    · subst e
      have := (jget_none_iff l k').mpr h.1
      simp [this]
    · simp [e]

theorem objMap_nodup (l : JObj) : ((objMap l).map Prod.fst).Nodup := by
  induction l with
  | nil => simp [objMap]
  | cons a l ih =>
    obtain ⟨k', v⟩ := a
    simp only [objMap]
    split
    · exact ih
    · rename_i h
      simp only [List.map_cons, List.nodup_cons]
      refine ⟨?_, ih⟩
      rw [← jget_none_iff, objMap_get, lastMember_none_iff]
      intro hm
      apply h
      obtain ⟨x, hx, e⟩ := List.mem_map.mp hm
      simp only [List.any_eq_true, beq_iff_eq]
      exact ⟨x, hx, e⟩

/-- Folding two tags apart: different tags have different folded names. -/
def TagsOk (tags : List String) : Prop := tags.Nodup ∧ ∀ t ∈ tags, ∀ u ∈ tags, foldName t = foldName u → t = u

theorem fieldFor_none {tags : List String} {k : String} (h : ∀ t ∈ tags, foldName t ≠ foldName k) : fieldFor tags k = none := by
  unfold fieldFor
  rw [if_neg]
  · rw [List.find?_eq_none]
    intro t ht
    simpa using h t ht
  · intro hk; exact h k hk rfl

theorem fieldFor_some {tags : List String} {k t : String} (h : fieldFor tags k = some t) :
    t ∈ tags ∧ foldName t = foldName k := by
  unfold fieldFor at h
  split at h
  · cases h; exact ⟨by assumption, rfl⟩
  · have h1 := List.find?_some h
    exact ⟨List.mem_of_find?_eq_some h, by simpa using h1⟩

/-- Decoding members that go each to its own field or to none. -/
theorem decodeKnown_eq (tags : List String) (dec : FieldDec) : ∀ (l : JObj) (f : String → Option JV),
    (l.map Prod.fst).Nodup →
    (∀ kv ∈ l, (kv.1 ∈ tags ∧ f kv.1 = none ∧ dec kv.1 none kv.2 = some (some kv.2)) ∨ fieldFor tags kv.1 = none) →
    decodeKnown tags dec l f = some (fun t => if t ∈ tags then (AMap.get l t).or (f t) else f t) := by
  intro l
  induction l with
  | nil =>
    intro f _ _
    simp [decodeKnown, jget_nil]
  | cons a l ih =>
    obtain ⟨k, v⟩ := a
    intro f hn h
    simp only [List.map_cons, List.nodup_cons] at hn
    rcases h _ (List.mem_cons_self) with ⟨h1, h2, h3⟩ | h1
    · have hf : fieldFor tags k = some k := by unfold fieldFor; rw [if_pos h1]
      simp only [decodeKnown, hf]
      simp only at h2 h3
      rw [h2, h3]
      simp only
      rw [ih _ hn.2]
      · congr 1
        funext t
        rw [jget_cons]
        by_cases e : k = t
        · subst e
          have := (jget_none_iff l k).mpr hn.1
          simp [h1, this]
        · have e' : ¬ t = k := fun h => e h.symm
          simp [e, e']
      · intro kv hkv
        rcases h kv (List.mem_cons_of_mem _ hkv) with ⟨a1, a2, a3⟩ | a
        · left
          refine ⟨a1, ?_, a3⟩
          rw [if_neg]
          · exact a2
          · intro e; apply hn.1; rw [← e]; exact List.mem_map.mpr ⟨kv, hkv, rfl⟩
        · exact .inr a
    · simp only [decodeKnown, h1]
      rw [ih _ hn.2 (fun kv hkv => h kv (List.mem_cons_of_mem _ hkv))]
      congr 1
      funext t
      rw [jget_cons]
      by_cases e : k = t
      · subst e
        have hnt : k ∉ tags := by
          intro hk
          unfold fieldFor at h1
          rw [if_pos hk] at h1
          cases h1
        simp [hnt]
      · simp [e]

theorem explicit_get (tags : List String) (f : String → Option JV) (k : String) :
    AMap.get (tags.filterMap (fun t => (f t).map (fun v => (t, v)))) k = if k ∈ tags then f k else none := by
  induction tags with
  | nil => simp [jget_nil]
  | cons t ts ih =>
    simp only [List.filterMap_cons]
    cases hf : f t with
    | none =>
      simp only [Option.map_none]
      rw [ih]
      by_cases e : k = t
      · subst e; simp [hf]
      · simp [e]
    | some v =>
      simp only [Option.map_some]
      rw [jget_cons, ih]
      by_cases e : t = k
      · subst e; simp [hf]
      · have e' : ¬ k = t := fun h => e h.symm
        simp [e, e']

theorem explicit_keys (tags : List String) (f : String → Option JV) :
    ((tags.filterMap (fun t => (f t).map (fun v => (t, v)))).map Prod.fst).Sublist tags := by
  induction tags with
  | nil => simp
  | cons t ts ih =>
    simp only [List.filterMap_cons]
    cases hf : f t with
    | none => simp only [Option.map_none]; exact ih.cons _
    | some v => simp only [Option.map_some, List.map_cons]; exact ih.cons_cons _

theorem members_nodup {tags : List String} (ht : tags.Nodup) {o : JStruct} (he : o.extra.WF) :
    ((members tags o).map Prod.fst).Nodup := by
  unfold members
  rw [List.map_append, List.nodup_append]
  refine ⟨?_, he, ?_⟩
  · have h1 := (explicit_keys tags o.known).nodup ht
    exact List.Nodup.sublist ((List.filter_sublist).map _) h1
  · intro a ha b hb e
    subst e
    obtain ⟨x, hx, rfl⟩ := List.mem_map.mp ha
    have := (List.mem_filter.mp hx).2
    simp only [Bool.not_eq_true', List.contains_eq_mem, decide_eq_false_iff_not] at this
    exact this hb

theorem members_get (tags : List String) (o : JStruct) (k : String) :
    AMap.get (members tags o) k =
      (AMap.get o.extra k).or (if k ∈ tags then o.known k else none) := by
  unfold members
  rw [jget_append, jget_filter (p := fun k => !(o.extra.keys.contains k)), explicit_get]
  by_cases h : k ∈ o.extra.keys
  · simp [h]
    have : AMap.get o.extra k ≠ none := by rw [Ne, jget_none_iff]; simpa [AMap.keys] using h
    cases hg : AMap.get o.extra k with
    | none => exact absurd hg this
    | some v => simp
  · have hg : AMap.get o.extra k = none := by rw [jget_none_iff]; simpa [AMap.keys] using h
    simp [h, hg]

theorem insertMember_perm (a : String × JV) (l : JObj) : (insertMember a l).Perm (a :: l) := by
  induction l with
  | nil => exact .refl _
  | cons b l ih =>
    simp only [insertMember]
    split
    · exact .refl _
    · exact (ih.cons b).trans (.swap _ _ _)

theorem sortMembers_perm (l : JObj) : (sortMembers l).Perm l := by
  induction l with
  | nil => exact .refl _
  | cons a l ih => exact (insertMember_perm _ _).trans (ih.cons a)

theorem marshalObj_perm (tags : List String) (o : JStruct) : (marshalObj tags o).Perm (members tags o) :=
  sortMembers_perm _

theorem marshalObj_nodup {tags : List String} (ht : tags.Nodup) {o : JStruct} (he : o.extra.WF) :
    ((marshalObj tags o).map Prod.fst).Nodup :=
  ((marshalObj_perm tags o).map _).nodup_iff.mpr (members_nodup ht he)

theorem marshalObj_get {tags : List String} (ht : tags.Nodup) {o : JStruct} (he : o.extra.WF) (k : String) :
    AMap.get (marshalObj tags o) k = (AMap.get o.extra k).or (if k ∈ tags then o.known k else none) := by
  rw [jget_perm (marshalObj_perm tags o) (marshalObj_nodup ht he), members_get]

theorem unmarshal_some {tags : List String} {dec : FieldDec} {l : JObj} {o : JStruct} (h : unmarshalObj tags dec l = some o) :
    decodeKnown tags dec l (fun _ => none) = some o.known ∧ o.extra = (objMap l).filter (fun kv => !(tags.contains kv.1)) := by
  unfold unmarshalObj at h
  split at h
  · cases h
  · rename_i f hf; cases h; exact ⟨hf, rfl⟩

/-- The fundamental round trip. -/
theorem obj_roundtrip {tags : List String} (ht : tags.Nodup) (dec : FieldDec) (o : JStruct) (he : o.extra.WF)
    (hx : ∀ k ∈ o.extra.keys, ∀ t ∈ tags, foldName t ≠ foldName k)
    (hk : ∀ t, t ∉ tags → o.known t = none)
    (hd : ∀ t ∈ tags, ∀ v, o.known t = some v → dec t none v = some (some v)) :
    ∃ o', unmarshalObj tags dec (marshalObj tags o) = some o' ∧ o'.known = o.known ∧
      ∀ k, AMap.get o'.extra k = AMap.get o.extra k := by
  have hn := marshalObj_nodup ht he
  have hg := marshalObj_get ht he
  have hdis : ∀ t ∈ tags, AMap.get o.extra t = none := by
    intro t htt
    rw [jget_none_iff]
    intro hm
    exact hx t hm t htt rfl
  have hdec : decodeKnown tags dec (marshalObj tags o) (fun _ => none) = some o.known := by
    rw [decodeKnown_eq tags dec _ _ hn]
    · congr 1
      funext t
      by_cases h : t ∈ tags
      · simp [h, hg, hdis t h]
      · simp [h, hk t h]
    · intro kv hkv
      have h1 := jget_of_mem hn hkv
      rw [hg] at h1
      by_cases h : kv.1 ∈ tags
      · left
        rw [hdis _ h, if_pos h] at h1
        exact ⟨h, rfl, hd _ h _ (by simpa using h1)⟩
      · right
        rw [if_neg h, Option.or_none] at h1
        apply fieldFor_none
        exact hx kv.1 (List.mem_map.mpr ⟨_, jget_mem h1, rfl⟩)
  unfold unmarshalObj
  rw [hdec]
  refine ⟨_, rfl, rfl, ?_⟩
  intro k
  rw [jget_filter (p := fun k => !(tags.contains k)), objMap_get, lastMember_nodup hn, hg]
  by_cases h : k ∈ tags
  · simp [h, hdis k h]
  · simp [h]

theorem lastMember_iff (l : JObj) (k : String) (v : JV) : lastMember l k = some v ↔ Spec.LastMember l k v := by
  induction l with
  | nil => simp [lastMember, Spec.LastMember]
  | cons a l ih =>
    obtain ⟨k', v'⟩ := a
    simp only [lastMember]
    cases h : lastMember l k with
    | some w =>
      rw [h] at ih
      simp only [Option.some_or, ih]
      constructor
      · rintro ⟨pre, post, rfl, hp⟩
        exact ⟨(k', v') :: pre, post, rfl, hp⟩
      · rintro ⟨pre, post, e, hp⟩
        cases pre with
        | nil =>
          simp only [List.nil_append, List.cons.injEq] at e
          obtain ⟨e1, rfl⟩ := e
          exfalso
          have : lastMember l k = none := by
            rw [lastMember_none_iff]
            intro hm
            obtain ⟨x, hx, ex⟩ := List.mem_map.mp hm
            exact hp x hx ex
          rw [h] at this; cases this
        | cons b pre =>
          simp only [List.cons_append, List.cons.injEq] at e
          exact ⟨pre, post, e.2, hp⟩
    | none =>
      have hno := (lastMember_none_iff l k).mp h
      simp only [Option.none_or]
      constructor
      · intro hh
        split at hh
        · rename_i e
          cases hh; subst e
          exact ⟨[], l, rfl, fun x hx e => hno (List.mem_map.mpr ⟨x, hx, e⟩)⟩
        · cases hh
      · rintro ⟨pre, post, e, hp⟩
        cases pre with
        | nil =>
          simp only [List.nil_append, List.cons.injEq, Prod.mk.injEq] at e
          simp [e.1.1, e.1.2]
        | cons b pre =>
          simp only [List.cons_append, List.cons.injEq] at e
          exfalso
          apply hno
          rw [e.2]
          simp

theorem onlyMember_of {l : JObj} (hn : (l.map Prod.fst).Nodup) {k : String} {v : JV} (h : AMap.get l k = some v) :
    Spec.OnlyMember l k v := by
  obtain ⟨pre, post, rfl⟩ := List.append_of_mem (jget_mem h)
  refine ⟨pre, post, rfl, ?_, ?_⟩
  all_goals
    simp only [List.map_append, List.map_cons, List.nodup_append, List.nodup_cons, List.mem_cons] at hn
    intro kv hkv e
  · exact hn.2.2 kv.1 (List.mem_map.mpr ⟨kv, hkv, rfl⟩) k (.inl rfl) e
  · apply hn.2.1.1
    rw [← e]
    exact List.mem_map.mpr ⟨kv, hkv, rfl⟩

theorem sorted_get {l : JObj} (hn : (l.map Prod.fst).Nodup) (k : String) : AMap.get (sortMembers l) k = AMap.get l k :=
  (jget_perm (sortMembers_perm l).symm hn k).symm

theorem over_nodup {l : JObj} (hn : (l.map Prod.fst).Nodup) {e : AMap JV} (he : e.WF) :
    ((l.filter (fun kv => !(e.keys.contains kv.1)) ++ e).map Prod.fst).Nodup := by
  rw [List.map_append, List.nodup_append]
  refine ⟨List.Nodup.sublist ((List.filter_sublist).map _) hn, he, ?_⟩
  intro a ha b hb e
  subst e
  obtain ⟨x, hx, rfl⟩ := List.mem_map.mp ha
  have := (List.mem_filter.mp hx).2
  simp only [Bool.not_eq_true', List.contains_eq_mem, decide_eq_false_iff_not] at this
  exact this hb

theorem over_get (l : JObj) (e : AMap JV) (k : String) :
    AMap.get (l.filter (fun kv => !(e.keys.contains kv.1)) ++ e) k = (AMap.get e k).or (AMap.get l k) := by
  rw [jget_append, jget_filter (p := fun k => !(e.keys.contains k))]
  by_cases h : k ∈ e.keys
  · have : AMap.get e k ≠ none := by rw [Ne, jget_none_iff]; simpa [AMap.keys] using h
    cases hg : AMap.get e k with
    | none => exact absurd hg this
    | some v => simp [h]
  · have hg : AMap.get e k = none := by rw [jget_none_iff]; simpa [AMap.keys] using h
    simp [h, hg]

theorem lastMember_append (l l' : JObj) (k : String) : lastMember (l ++ l') k = (lastMember l' k).or (lastMember l k) := by
  induction l with
  | nil => simp [lastMember]
  | cons a l ih =>
    obtain ⟨k', v⟩ := a
    simp only [List.cons_append, lastMember, ih, Option.or_assoc]

theorem response_get {r : ResolveResp} (he : r.payload.extra.WF) {l : JObj} (h : r.marshal = some l) :
    (l.map Prod.fst).Nodup ∧ ∀ k, AMap.get l k = (AMap.get r.payload.extra k).or ((lastMember r.additional k).or
      (if k ∈ resolvePayloadTags then r.payload.known k else none)) := by
  unfold ResolveResp.marshal at h
  split at h
  · cases h
  · rename_i m hm
    cases h
    have hnd : (((objMap (marshalObj resolvePayloadTags r.payload ++ r.additional)).filter
        (fun kv => !(r.payload.extra.keys.contains kv.1)) ++ r.payload.extra).map Prod.fst).Nodup :=
      over_nodup (objMap_nodup _) he
    refine ⟨((sortMembers_perm _).map _).nodup_iff.mpr hnd, ?_⟩
    intro k
    rw [sorted_get hnd, over_get, objMap_get, lastMember_append,
      lastMember_nodup (marshalObj_nodup (by decide) he), marshalObj_get (by decide) he]
    cases AMap.get r.payload.extra k with
    | some v => simp
    | none => simp

end Oidfed
