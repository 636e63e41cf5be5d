import Verif.Spec.MarkJSON
import Verif.Lemmas.Issue
/-!
# Facts about written trust marks and specifications
-/

namespace Oidfed
open Spec

theorem markStruct_ok (iss sub type : String) (iat : Time) (exp : Option Time) (logo ref delegation : String) (extra : AMap JV)
    (he : extra.WF) (hx : ∀ k ∈ extra.keys, ∀ t ∈ markTags, Apart t k) :
    ∃ o', unmarshalObj markTags tmDec (marshalObj markTags (markStruct iss sub type iat exp logo ref delegation extra)) = some o' ∧
      o'.known = (markStruct iss sub type iat exp logo ref delegation extra).known ∧ SameExtra o'.extra extra := by
  obtain ⟨o', h1, h2, h3⟩ := obj_roundtrip (tags := markTags) (by decide) tmDec
    (markStruct iss sub type iat exp logo ref delegation extra) he hx
    (by
      intro t ht
      simp only [markTags, List.mem_cons, List.not_mem_nil, or_false, not_or] at ht
      simp [markStruct, ht])
    (by
      intro t ht v hv
      simp only [markTags, List.mem_cons, List.not_mem_nil, or_false] at ht
      rcases ht with rfl | rfl | rfl | rfl | rfl | rfl | rfl | rfl <;> simp only [markStruct] at hv
      · cases hv; exact tmDec_str (by decide) (by decide) _
      · cases hv; exact tmDec_str (by decide) (by decide) _
      · cases hv; exact tmDec_str (by decide) (by decide) _
      · cases hv; rfl
      · have := omitEmpty_some hv; subst this; exact tmDec_str (by decide) (by decide) _
      · cases exp with
        | none => cases hv
        | some e => cases hv; rfl
      · have := omitEmpty_some hv; subst this; exact tmDec_str (by decide) (by decide) _
      · have := omitEmpty_some hv; subst this; exact tmDec_str (by decide) (by decide) _)
  exact ⟨o', h1, h2, h3⟩

theorem optTime_read (exp : Option Time) :
    optTimeOf (exp.map (fun e => JV.num (marshalTime e))) = exp.map (fun e => unmarshalTime (marshalTime e)) := by
  cases exp with
  | none => rfl
  | some e => simp only [Option.map_some, optTimeOf, read_time]

/-- The claims a reader sees in a written trust mark. -/
theorem markView_read (iss sub type : String) (iat : Time) (exp : Option Time) (logo ref delegation : String) (extra : AMap JV)
    (he : extra.WF) (hx : ∀ k ∈ extra.keys, ∀ t ∈ markTags, Apart t k) :
    ∃ v, (unmarshalObj markTags tmDec (marshalObj markTags (markStruct iss sub type iat exp logo ref delegation extra))).map readMarkView =
        some v ∧ v.iss = iss ∧ v.sub = sub ∧ v.type = type ∧ v.iat = unmarshalTime (marshalTime iat) ∧
      v.exp = exp.map (fun e => unmarshalTime (marshalTime e)) ∧ v.logo = logo ∧ v.ref = ref ∧ v.delegation = delegation ∧
      SameExtra v.extra extra := by
  obtain ⟨o', h1, h2, h3⟩ := markStruct_ok iss sub type iat exp logo ref delegation extra he hx
  rw [h1]
  refine ⟨_, rfl, ?_, ?_, ?_, ?_, ?_, ?_, ?_, ?_, h3⟩ <;> simp only [readMarkView, h2]
  · rfl
  · rfl
  · rfl
  · show timeOf (some (.num (marshalTime iat))) = _
    simp only [timeOf, read_time]
  · exact optTime_read exp
  · exact strOf_omitEmpty logo
  · exact strOf_omitEmpty ref
  · exact strOf_omitEmpty delegation

/-- The claims a reader sees in a written delegation. -/
theorem delegView_read (iss sub type : String) (iat : Time) (exp : Option Time) (ref : String) (extra : AMap JV)
    (he : extra.WF) (hx : ∀ k ∈ extra.keys, ∀ t ∈ delegTags, Apart t k) :
    ∃ v, (unmarshalObj delegTags tmDec (marshalObj delegTags (delegStruct iss sub type iat exp ref extra))).map readDelegView =
        some v ∧ v.iss = iss ∧ v.sub = sub ∧ v.type = type ∧ v.iat = unmarshalTime (marshalTime iat) ∧
      v.exp = exp.map (fun e => unmarshalTime (marshalTime e)) ∧ v.ref = ref ∧ SameExtra v.extra extra := by
  obtain ⟨o', h1, h2, h3⟩ := obj_roundtrip (tags := delegTags) (by decide) tmDec
    (delegStruct iss sub type iat exp ref extra) he hx
    (by
      intro t ht
      simp only [delegTags, List.mem_cons, List.not_mem_nil, or_false, not_or] at ht
      simp [delegStruct, ht])
    (by
      intro t ht v hv
      simp only [delegTags, List.mem_cons, List.not_mem_nil, or_false] at ht
      rcases ht with rfl | rfl | rfl | rfl | rfl | rfl <;> simp only [delegStruct] at hv
      · cases hv; exact tmDec_str (by decide) (by decide) _
      · cases hv; exact tmDec_str (by decide) (by decide) _
      · cases hv; exact tmDec_str (by decide) (by decide) _
      · cases hv; rfl
      · cases exp with
        | none => cases hv
        | some e => cases hv; rfl
      · have := omitEmpty_some hv; subst this; exact tmDec_str (by decide) (by decide) _)
  rw [h1]
  refine ⟨_, rfl, ?_, ?_, ?_, ?_, ?_, ?_, h3⟩ <;> simp only [readDelegView, h2]
  · rfl
  · rfl
  · rfl
  · show timeOf (some (.num (marshalTime iat))) = _
    simp only [timeOf, read_time]
  · exact optTime_read exp
  · exact strOf_omitEmpty ref

/-! ## Specifications -/

theorem duration_read (d : Int) (h : WholeSeconds d) : durationOf (some (.num (marshalDuration d))) = d := by
  obtain ⟨s, rfl, hs⟩ := h
  have hf : float64 (marshalDuration (s * second)) = marshalDuration (s * second) := float64_idem _
  simp only [durationOf, hf]
  unfold unmarshalDuration marshalDuration
  rw [seconds_exact hs, duration_int hs]

/-- A spec read from the fields of a written one. -/
theorem readSpec_same (s : MarkSpec) (o : JStruct) (hk : o.known = s.struct.known) (he : SameExtra o.extra s.extra)
    (hl : WholeSeconds s.lifetime) : SameSpec (readSpec o) s := by
  refine ⟨?_, ?_, ?_, ?_, ?_, ?_, he⟩ <;> simp only [readSpec, hk]
  · rfl
  · exact duration_read _ hl
  · rfl
  · rfl
  · rfl
  · rfl

theorem specDec_ok (s : MarkSpec) (t : String) (ht : t ∈ specTags) (v : JV) (hv : s.struct.known t = some v) :
    specDec t none v = some (some v) := by
  simp only [specTags, List.mem_cons, List.not_mem_nil, or_false] at ht
  rcases ht with rfl | rfl | rfl | rfl | rfl | rfl <;> (simp only [MarkSpec.struct] at hv; cases hv; rfl)

theorem specYAMLDec_ok (text : JV → String) (s : MarkSpec) (t : String) (ht : t ∈ specTags) (v : JV) (hv : s.struct.known t = some v) :
    specYAMLDec text t none v = some (some v) := by
  simp only [specTags, List.mem_cons, List.not_mem_nil, or_false] at ht
  rcases ht with rfl | rfl | rfl | rfl | rfl | rfl <;> (simp only [MarkSpec.struct] at hv; cases hv; rfl)

theorem spec_unknown (s : MarkSpec) (t : String) (ht : t ∉ specTags) : s.struct.known t = none := by
  simp only [specTags, List.mem_cons, List.not_mem_nil, or_false, not_or] at ht
  simp [MarkSpec.struct, ht]

/-! ## YAML -/

theorem hasDup_false {l : JObj} (h : (l.map Prod.fst).Nodup) : hasDup l = false := by
  induction l with
  | nil => rfl
  | cons a l ih =>
    obtain ⟨k, v⟩ := a
    simp only [List.map_cons, List.nodup_cons] at h
    simp only [hasDup, ih h.2, Bool.or_false, List.any_eq_false]
    intro x hx he
    exact h.1 (List.mem_map.2 ⟨x, hx, by simpa using he⟩)

theorem decodeYAML_eq (tags : List String) (dec : FieldDec) : ∀ (l : JObj) (f : String → Option JV),
    (l.map Prod.fst).Nodup → (∀ kv ∈ l, kv.1 ∈ tags → f kv.1 = none ∧ dec kv.1 none kv.2 = some (some kv.2)) →
    ∃ g, decodeYAML tags dec l f = some g ∧ ∀ t, g t = if t ∈ tags then (AMap.get l t).or (f t) else f t := by
  intro l
  induction l with
  | nil => intro f _ _; exact ⟨f, rfl, fun t => by simp [jget_nil]⟩
  | cons a l ih =>
    intro f hn hd
    obtain ⟨k, v⟩ := a
    simp only [List.map_cons, List.nodup_cons] at hn
    by_cases hk : k ∈ tags
    · obtain ⟨h1, h2⟩ := hd (k, v) (by simp) hk
      have h2 : dec k none v = some (some v) := h2
      have h1 : f k = none := h1
      obtain ⟨g, hg, hgt⟩ := ih (fun u => if u = k then some v else f u) hn.2 (by
        intro kv hkv ht
        have hne : kv.1 ≠ k := fun e => hn.1 (List.mem_map.2 ⟨kv, hkv, e⟩)
        obtain ⟨h3, h4⟩ := hd kv (by simp [hkv]) ht
        exact ⟨by simp only [if_neg hne]; exact h3, h4⟩)
      refine ⟨g, ?_, ?_⟩
      · unfold decodeYAML
        rw [if_pos hk, h1, h2]
        exact hg
      · intro t
        rw [hgt t, jget_cons]
        by_cases htk : t = k
        · subst htk
          have hnone : AMap.get l t = none := (jget_none_iff l t).2 hn.1
          simp [hk, hnone]
        · have : ¬ k = t := fun e => htk e.symm
          simp [htk, this]
    · obtain ⟨g, hg, hgt⟩ := ih f hn.2 (fun kv hkv ht => hd kv (by simp [hkv]) ht)
      refine ⟨g, ?_, ?_⟩
      · unfold decodeYAML
        rw [if_neg hk]
        exact hg
      · intro t
        rw [hgt t, jget_cons]
        by_cases htk : k = t
        · subst htk; simp [hk]
        · simp [htk]

/-- What is written as YAML is read back, whatever additional members there are, if their names are not those of fields. -/
theorem yaml_roundtrip {tags : List String} (ht : tags.Nodup) (dec : FieldDec) (o : JStruct) (he : o.extra.WF)
    (hx : ∀ k ∈ o.extra.keys, k ∉ tags) (hknown : ∀ t, t ∉ tags → o.known t = none)
    (hdec : ∀ t ∈ tags, ∀ v, o.known t = some v → dec t none v = some (some v)) :
    ∃ o', readYAML tags dec (writeYAML tags o) = some o' ∧ o'.known = o.known ∧ SameExtra o'.extra o.extra := by
  have hn : ((writeYAML tags o).map Prod.fst).Nodup := members_nodup ht he
  have hget : ∀ k, AMap.get (writeYAML tags o) k = _ := members_get tags o
  have hmem : ∀ t ∈ tags, AMap.get (writeYAML tags o) t = o.known t := by
    intro t htt
    rw [hget]
    have : AMap.get o.extra t = none := by
      rw [jget_none_iff]
      intro h
      exact hx t h htt
    simp [this, htt]
  obtain ⟨g, hg, hgt⟩ := decodeYAML_eq tags dec (writeYAML tags o) (fun _ => none) hn (by
    intro kv hkv hk
    refine ⟨rfl, hdec kv.1 hk kv.2 ?_⟩
    rw [← hmem kv.1 hk]
    exact jget_of_mem hn hkv)
  refine ⟨⟨g, (writeYAML tags o).filter (fun kv => !(tags.contains kv.1))⟩, ?_, ?_, ?_⟩
  · unfold readYAML
    rw [hasDup_false hn]
    simp only [Bool.false_eq_true, if_false, hg]
  · funext t
    show g t = _
    rw [hgt t]
    by_cases htt : t ∈ tags
    · simp [htt, hmem t htt]
    · simp [htt, hknown t htt]
  · intro k
    show AMap.get ((writeYAML tags o).filter (fun kv => !(tags.contains kv.1))) k = _
    rw [jget_filter _ (fun k => !(tags.contains k)), hget]
    by_cases htt : k ∈ tags
    · have : AMap.get o.extra k = none := by
        rw [jget_none_iff]
        intro h
        exact hx k h htt
      simp [htt, this]
    · simp [htt]

theorem nodup_eraseDups (n : Nat) : ∀ l : List String, l.length ≤ n → l.eraseDups.Nodup := by
  induction n with
  | zero => intro l hl; rw [List.length_eq_zero_iff.1 (Nat.le_zero.1 hl)]; simp
  | succ n ih =>
    intro l hl
    cases l with
    | nil => simp
    | cons a as =>
      rw [List.eraseDups_cons, List.nodup_cons]
      refine ⟨?_, ih _ (Nat.le_trans (List.length_filter_le _ _) (Nat.le_of_succ_le_succ hl))⟩
      rw [List.mem_eraseDups]
      simp

/-! ## The order of the members -/

theorem insert_sorted (a : String × JV) (l : JObj) (h : l.Pairwise (fun x y => x.1 ≤ y.1)) :
    (insertMember a l).Pairwise (fun x y => x.1 ≤ y.1) := by
  induction l with
  | nil => simp [insertMember]
  | cons b l ih =>
    rw [List.pairwise_cons] at h
    unfold insertMember
    split
    · rename_i hlt
      have hab : a.1 ≤ b.1 := String.not_lt.1 (String.lt_asymm hlt)
      rw [List.pairwise_cons]
      refine ⟨?_, List.pairwise_cons.2 h⟩
      intro x hx
      rcases List.mem_cons.1 hx with rfl | hx
      · exact hab
      · exact String.le_trans hab (h.1 x hx)
    · rename_i hlt
      rw [List.pairwise_cons]
      refine ⟨?_, ih h.2⟩
      intro x hx
      rcases List.mem_cons.1 ((insertMember_perm a l).mem_iff.1 hx) with rfl | hx
      · exact String.not_lt.1 hlt
      · exact h.1 x hx

theorem sort_sorted (l : JObj) : (sortMembers l).Pairwise (fun x y => x.1 ≤ y.1) := by
  induction l with
  | nil => simp [sortMembers]
  | cons a l ih => exact insert_sorted a _ ih

/-- Objects with the same members are written in the same way. -/
theorem sort_congr {l l' : JObj} (hn : (l.map Prod.fst).Nodup) (hn' : (l'.map Prod.fst).Nodup)
    (h : ∀ k, AMap.get l k = AMap.get l' k) : sortMembers l = sortMembers l' := by
  have hp : l.Perm l' := by
    have n1 : l.Nodup := List.Nodup.of_map _ hn
    have n2 : l'.Nodup := List.Nodup.of_map _ hn'
    rw [List.perm_ext_iff_of_nodup n1 n2]
    intro kv
    constructor
    · intro hm; exact jget_mem (h kv.1 ▸ jget_of_mem hn hm)
    · intro hm; exact jget_mem ((h kv.1).symm ▸ jget_of_mem hn' hm)
  have hs : (sortMembers l).Perm (sortMembers l') := (sortMembers_perm l).trans (hp.trans (sortMembers_perm l').symm)
  refine hs.eq_of_pairwise ?_ (sort_sorted l) (sort_sorted l')
  intro a b ha hb h1 h2
  have hk : a.1 = b.1 := String.le_antisymm h1 h2
  have ha' : AMap.get l a.1 = some a.2 := jget_of_mem hn ((sortMembers_perm l).mem_iff.1 ha)
  have hb' : AMap.get l' b.1 = some b.2 := jget_of_mem hn' ((sortMembers_perm l').mem_iff.1 hb)
  rw [h, hk, hb'] at ha'
  exact Prod.ext hk (Option.some.inj ha').symm

/-- Structs with the same fields and additional members are written in the same way. -/
theorem marshalObj_congr {tags : List String} (ht : tags.Nodup) {o o' : JStruct} (he : o.extra.WF) (he' : o'.extra.WF)
    (hk : o.known = o'.known) (hx : SameExtra o.extra o'.extra) : marshalObj tags o = marshalObj tags o' := by
  refine sort_congr (members_nodup ht he) (members_nodup ht he') ?_
  intro k
  rw [members_get, members_get, hx k, hk]

end Oidfed
