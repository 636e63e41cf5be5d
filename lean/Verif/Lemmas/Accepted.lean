import Verif.Spec.Accepted
import Verif.Lemmas.MetaJSON
import Verif.Lemmas.StmtJSON
/-!
# Lemmas about types of JSON values
-/

namespace Oidfed
open Spec

/-- The names are told apart even without upper and lower case. -/
def ApartAll (fs : List (String × JType)) : Prop := ∀ f ∈ fs, ∀ g ∈ fs, foldName f.1 = foldName g.1 → f = g

/-- A field decoder accepts exactly the values of the type, as long as what was there before fulfils `I`, and leaves what fulfils `I`. -/
def DecKeeps (s : JType) (I : JV → Prop) (d : Option JV → JV → Option (Option JV)) : Prop :=
  ∀ cur v, (∀ c, cur = some c → I c) → ((d cur v).isSome ↔ OfType s v) ∧ ∀ c, d cur v = some (some c) → I c

/-- A field decoder accepts exactly the values of the type, whatever of the type was there before, and leaves a value of the type. -/
abbrev DecFits (s : JType) (d : Option JV → JV → Option (Option JV)) : Prop := DecKeeps s (OfType s) d

theorem fieldFor_apart {fs : List (String × JType)} (ha : ApartAll fs) (k t : String) :
    fieldFor (fs.map Prod.fst) k = some t ↔ t ∈ fs.map Prod.fst ∧ foldName k = foldName t := by
  constructor
  · intro h
    obtain ⟨h1, h2⟩ := fieldFor_some h
    exact ⟨h1, h2.symm⟩
  · rintro ⟨h1, h2⟩
    cases h : fieldFor (fs.map Prod.fst) k with
    | none =>
      exfalso
      unfold fieldFor at h
      split at h
      · cases h
      · rw [List.find?_eq_none] at h
        exact h t h1 (beq_iff_eq.mpr h2.symm)
    | some u =>
      obtain ⟨h3, h4⟩ := fieldFor_some h
      obtain ⟨f, hf, rfl⟩ := List.mem_map.mp h1
      obtain ⟨g, hg, rfl⟩ := List.mem_map.mp h3
      rw [ha g hg f hf (h4.trans h2)]

/-- What the members for the fields must be. -/
abbrev MembersFit (fs : List (String × JType)) (l : JObj) : Prop := ∀ kv ∈ l, ∀ f ∈ fs, SpelledAs f.1 kv.1 → OfType f.2 kv.2

theorem decodeKnown_fits {fs : List (String × JType)} (ha : ApartAll fs) {dec : FieldDec} {I : String × JType → JV → Prop} (hd : ∀ f ∈ fs, DecKeeps f.2 (I f) (dec f.1)) :
    ∀ (l : JObj) (x : String → Option JV), (∀ f ∈ fs, ∀ c, x f.1 = some c → I f c) →
      ((decodeKnown (fs.map Prod.fst) dec l x).isSome ↔ MembersFit fs l)
  | [], x, _ => by simp [decodeKnown, MembersFit]
  | (k, v) :: l, x, hx => by
    rw [decodeKnown]
    cases hk : fieldFor (fs.map Prod.fst) k with
    | none =>
      simp only []
      rw [decodeKnown_fits ha hd l x hx]
      constructor
      · intro h kv hkv f hf hs
        rcases List.mem_cons.mp hkv with rfl | hkv
        · have := (fieldFor_apart ha k f.1).mpr ⟨List.mem_map.mpr ⟨f, hf, rfl⟩, hs⟩
          rw [hk] at this; cases this
        · exact h kv hkv f hf hs
      · exact fun h kv hkv => h kv (List.mem_cons_of_mem _ hkv)
    | some t =>
      obtain ⟨ht, hkt⟩ := (fieldFor_apart ha k t).mp hk
      obtain ⟨g, hg, rfl⟩ := List.mem_map.mp ht
      obtain ⟨h1, h2⟩ := hd g hg (x g.1) v (hx g hg)
      have only : ∀ f ∈ fs, SpelledAs f.1 k → f = g := fun f hf hs => ha f hf g hg (hs.symm.trans hkt)
      simp only []
      cases hdv : dec g.1 (x g.1) v with
      | none =>
        simp only [Option.isSome_none, Bool.false_eq_true, false_iff]
        intro h
        have := h1.mpr (h (k, v) List.mem_cons_self g hg hkt)
        rw [hdv] at this; cases this
      | some y =>
        rw [hdv] at h1
        simp only []
        rw [decodeKnown_fits ha hd l _ (fun f hf c hc => by
          by_cases e : f.1 = g.1
          · simp only [e, if_true] at hc
            have : f = g := ha f hf g hg (by rw [e])
            rw [this]
            exact h2 c (by rw [hdv, hc])
          · simp only [e, if_false] at hc
            exact hx f hf c hc)]
        constructor
        · intro h kv hkv f hf hs
          rcases List.mem_cons.mp hkv with rfl | hkv
          · rw [only f hf hs]; exact h1.mp rfl
          · exact h kv hkv f hf hs
        · exact fun h kv hkv => h kv (List.mem_cons_of_mem _ hkv)

theorem fits_record {fs : List (String × JType)} {l : JObj} : OfType (.record fs) (.obj l) ↔ MembersFit fs l :=
  ⟨fun h => by cases h; assumption, .record fs l⟩

theorem fits_map {s : JType} {l : JObj} : OfType (.map s) (.obj l) ↔ ∀ kv ∈ l, OfType s kv.2 :=
  ⟨fun h => by cases h; assumption, .map s l⟩

theorem fits_list {s : JType} {l : List JV} : OfType (.list s) (.arr l) ↔ ∀ v ∈ l, OfType s v :=
  ⟨fun h => by cases h; assumption, .list s l⟩

theorem fits_exactly {fs : List (String × JType)} {l : JObj} : OfType (.exactly fs) (.obj l) ↔ (∀ kv ∈ l, ∃ f ∈ fs, f.1 = kv.1) ∧ MembersFit fs l :=
  ⟨fun h => by cases h; exact ⟨by assumption, by assumption⟩, fun h => .exactly fs l h.1 h.2⟩

theorem fits_that {p : JV → Prop} {v : JV} : OfType (.that p) v ↔ p v :=
  ⟨fun h => by
    cases h with
    | null _ h => exact absurd rfl (h p)
    | that _ _ h => exact h, .that p v⟩

theorem unmarshalObj_fits {fs : List (String × JType)} (ha : ApartAll fs) {dec : FieldDec} {I : String × JType → JV → Prop}
    (hd : ∀ f ∈ fs, DecKeeps f.2 (I f) (dec f.1)) (l : JObj) :
    (unmarshalObj (fs.map Prod.fst) dec l).isSome ↔ OfType (.record fs) (.obj l) := by
  rw [fits_record, ← decodeKnown_fits ha hd l (fun _ => none) (fun _ _ c h => by cases h), unmarshalObj]
  cases decodeKnown (fs.map Prod.fst) dec l (fun _ => none) <;> simp

/-! ## Field decoders -/

theorem fits_text_null : OfType .text .null := .null _ (fun _ h => by cases h)
theorem fits_list_null (s : JType) : OfType (.list s) .null := .null _ (fun _ h => by cases h)
theorem fits_map_null (s : JType) : OfType (.map s) .null := .null _ (fun _ h => by cases h)
theorem fits_record_null (fs : List (String × JType)) : OfType (.record fs) .null := .null _ (fun _ h => by cases h)
theorem fits_exactly_null (fs : List (String × JType)) : OfType (.exactly fs) .null := .null _ (fun _ h => by cases h)
theorem fits_number_null : OfType .number .null := .null _ (fun _ h => by cases h)
theorem fits_integer_null : OfType .integer .null := .null _ (fun _ h => by cases h)

theorem decString_fits : DecFits .text decString := by
  intro cur v hc
  cases v with
  | null => exact ⟨⟨fun _ => fits_text_null, fun _ => rfl⟩, fun c h => hc c (Option.some.inj h)⟩
  | str s => exact ⟨⟨fun _ => .text s, fun _ => rfl⟩, fun c h => by cases h; exact .text s⟩
  | _ => exact ⟨⟨fun h => (by cases h), fun h => by cases h⟩, fun c h => by cases h⟩

theorem keepIf_fits {s : JType} {ok : JV → Bool} (hn : OfType s .null) (ho : ∀ v, v ≠ .null → (ok v = true ↔ OfType s v)) : DecFits s (fun _ v => keepIf ok v) := by
  intro cur v _
  by_cases h : v = .null
  · subst h
    exact ⟨⟨fun _ => hn, fun _ => rfl⟩, fun c h => by cases h⟩
  · have e : keepIf ok v = if ok v then some (some v) else none := by
      cases v with
      | null => exact absurd rfl h
      | _ => rfl
    have := ho v h
    simp only [e]
    by_cases hv : ok v = true
    · simp only [hv, if_true]
      exact ⟨⟨fun _ => this.mp hv, fun _ => rfl⟩, fun c h => by cases h; exact this.mp hv⟩
    · simp only [hv]
      exact ⟨⟨fun h => (by cases h), fun h => absurd (this.mpr h) hv⟩, fun c h => by cases h⟩

theorem keepInto_fits {s : JType} {join : JObj → JObj → JObj} {ok : JV → Bool} (hn : OfType s .null) (ho : ∀ v, v ≠ .null → (ok v = true ↔ OfType s v))
    (hj : ∀ l l', OfType s (.obj l) → (OfType s (.obj (join l l')) ↔ OfType s (.obj l'))) : DecFits s (keepInto join ok) := by
  intro cur v hc
  have plain : ∀ v, v ≠ .null → (((if ok v then some (some v) else none : Option (Option JV)).isSome ↔ OfType s v) ∧
      ∀ c, (if ok v then some (some v) else none : Option (Option JV)) = some (some c) → OfType s c) := by
    intro v h
    have := ho v h
    by_cases hv : ok v = true
    · simp only [hv, if_true]
      exact ⟨⟨fun _ => this.mp hv, fun _ => rfl⟩, fun c h => by cases h; exact this.mp hv⟩
    · simp only [hv]
      exact ⟨⟨fun h => (by cases h), fun h => absurd (this.mpr h) hv⟩, fun c h => by cases h⟩
  cases v with
  | null => exact ⟨⟨fun _ => hn, fun _ => rfl⟩, fun c h => by cases h⟩
  | obj l' =>
    cases cur with
    | none => exact plain _ (by simp)
    | some c =>
      cases c with
      | obj l =>
        have hl := hc _ rfl
        obtain ⟨h1, h2⟩ := plain (.obj (join l l')) (by simp)
        exact ⟨h1.trans (hj l l' hl), h2⟩
      | _ => exact plain _ (by simp)
  | _ => exact plain _ (by simp)

/-! ## Joining objects -/

theorem record_append {fs : List (String × JType)} (l l' : JObj) (h : OfType (.record fs) (.obj l)) :
    OfType (.record fs) (.obj (l ++ l')) ↔ OfType (.record fs) (.obj l') := by
  rw [fits_record] at h ⊢
  rw [fits_record]
  constructor
  · exact fun h' kv hkv => h' kv (List.mem_append_right _ hkv)
  · intro h' kv hkv
    rcases List.mem_append.mp hkv with e | e
    · exact h kv e
    · exact h' kv e

theorem map_append {s : JType} (l l' : JObj) (h : OfType (.map s) (.obj l)) : OfType (.map s) (.obj (l ++ l')) ↔ OfType (.map s) (.obj l') := by
  rw [fits_map] at h ⊢
  rw [fits_map]
  constructor
  · exact fun h' kv hkv => h' kv (List.mem_append_right _ hkv)
  · intro h' kv hkv
    rcases List.mem_append.mp hkv with e | e
    · exact h kv e
    · exact h' kv e

theorem membersFit_join {fs : List (String × JType)} (ha : ApartAll fs) (l l' : JObj) (h : MembersFit fs l) :
    MembersFit fs (joinKnown (fs.map Prod.fst) l l') ↔ MembersFit fs l' := by
  unfold joinKnown
  constructor
  · exact fun h' kv hkv => h' kv (List.mem_append_right _ hkv)
  · intro h' kv hkv f hf hs
    rcases List.mem_append.mp hkv with e | e
    · obtain ⟨kv', hkv', e⟩ := List.mem_filterMap.mp e
      rw [Option.map_eq_some_iff] at e
      obtain ⟨t, ht, rfl⟩ := e
      obtain ⟨h1, h2⟩ := (fieldFor_apart ha kv'.1 t).mp ht
      exact h kv' hkv' f hf (h2.trans hs)
    · exact h' kv e f hf hs

theorem record_join {fs : List (String × JType)} (ha : ApartAll fs) (l l' : JObj) (h : OfType (.record fs) (.obj l)) :
    OfType (.record fs) (.obj (joinKnown (fs.map Prod.fst) l l')) ↔ OfType (.record fs) (.obj l') := by
  rw [fits_record] at h ⊢
  rw [fits_record]
  exact membersFit_join ha l l' h

theorem exactly_join {fs : List (String × JType)} (ha : ApartAll fs) (l l' : JObj) (h : OfType (.exactly fs) (.obj l)) :
    OfType (.exactly fs) (.obj (joinKnown (fs.map Prod.fst) l l')) ↔ OfType (.exactly fs) (.obj l') := by
  rw [fits_exactly] at h ⊢
  rw [fits_exactly, membersFit_join ha l l' h.2]
  refine and_congr ?_ Iff.rfl
  unfold joinKnown
  constructor
  · exact fun h' kv hkv => h' kv (List.mem_append_right _ hkv)
  · intro h' kv hkv
    rcases List.mem_append.mp hkv with e | e
    · obtain ⟨kv', hkv', e⟩ := List.mem_filterMap.mp e
      rw [Option.map_eq_some_iff] at e
      obtain ⟨t, ht, rfl⟩ := e
      obtain ⟨h1, h2⟩ := (fieldFor_apart ha kv'.1 t).mp ht
      obtain ⟨g, hg, rfl⟩ := List.mem_map.mp h1
      exact ⟨g, hg, rfl⟩
    · exact h' kv e

/-! ## Values -/

theorem decStrings_fits : ∀ l : List JV, (decStrings l).isSome ↔ ∀ v ∈ l, OfType .text v
  | [] => by simp [decStrings]
  | v :: l => by
    rw [List.forall_mem_cons, ← decStrings_fits l]
    cases v with
    | null => simp [decStrings, fits_text_null]
    | str s => simp [decStrings, OfType.text s]
    | _ => exact ⟨fun h => (by cases h), fun h => by cases h.1⟩

theorem decStrs_fits (v : JV) : (decStrs v).isSome ↔ OfType texts v := by
  cases v with
  | null => exact ⟨fun _ => fits_list_null _, fun _ => rfl⟩
  | arr l =>
    unfold texts
    rw [fits_list, ← decStrings_fits, decStrs, Option.isSome_map]
  | _ => exact ⟨fun h => (by cases h), fun h => by cases h⟩

theorem decList_fits {α : Type} {f : JV → Option α} {s : JType} (hf : ∀ v, (f v).isSome ↔ OfType s v) : ∀ l : List JV, (decList f l).isSome ↔ ∀ v ∈ l, OfType s v
  | [] => by simp [decList]
  | v :: l => by
    rw [List.forall_mem_cons, ← decList_fits hf l, ← hf v, decList]
    cases f v <;> cases decList f l <;> simp

theorem decMembers_some {α : Type} (f : JV → Option α) : ∀ l : AMap JV, (decMembers f l).isSome ↔ ∀ kv ∈ l, (f kv.2).isSome
  | [] => by simp [decMembers]
  | (k, v) :: l => by
    rw [List.forall_mem_cons, ← decMembers_some f l, decMembers]
    simp only []
    cases f v <;> cases decMembers f l <;> simp

theorem objMap_sub : ∀ (l : JObj) (kv : String × JV), kv ∈ objMap l → kv ∈ l
  | [], _, h => by cases h
  | (k, v) :: l, kv, h => by
    unfold objMap at h
    split at h
    · exact List.mem_cons_of_mem _ (objMap_sub l kv h)
    · rcases List.mem_cons.mp h with e | e
      · exact e ▸ List.mem_cons_self
      · exact List.mem_cons_of_mem _ (objMap_sub l kv e)

theorem decMap_fits {α : Type} {f : JV → Option α} {s : JType} (hf : ∀ v, (f v).isSome ↔ OfType s v) (v : JV) : (decMap f v).isSome ↔ OfType (.map s) v := by
  cases v with
  | null => exact ⟨fun _ => fits_map_null _, fun _ => rfl⟩
  | obj l =>
    rw [fits_map, decMap]
    constructor
    · intro h
      by_cases hc : (l.all fun kv => (f kv.2).isSome) = true
      · intro kv hkv
        exact (hf _).mp (List.all_eq_true.mp hc kv hkv)
      · rw [if_neg hc] at h; cases h
    · intro h
      rw [if_pos (List.all_eq_true.mpr fun kv hkv => (hf _).mpr (h kv hkv)), decMembers_some]
      exact fun kv hkv => (hf _).mpr (h kv (objMap_sub l kv hkv))
  | _ => exact ⟨fun h => (by cases h), fun h => by cases h⟩

theorem decInt_fits (v : JV) (hv : v ≠ .null) : (decInt v).isSome ↔ OfType .integer v := by
  cases v with
  | null => exact absurd rfl hv
  | num q =>
    simp only [decInt]
    by_cases h : q.den = 1 ∧ minDuration ≤ q.num ∧ q.num ≤ maxDuration
    · rw [if_pos h]
      refine ⟨fun _ => ?_, fun _ => rfl⟩
      have e : q = (q.num : Rat) := by
        rw [← Rat.num_div_den q, h.1]; simp
      rw [e]
      exact .integer q.num ⟨h.2.1, h.2.2⟩
    · rw [if_neg h]
      refine ⟨fun h => (by cases h), fun hf => ?_⟩
      cases hf with
      | integer n hn => exact absurd ⟨Rat.den_intCast n, hn.1, hn.2⟩ h
  | _ => exact ⟨fun h => (by cases h), fun h => by cases h⟩

theorem recordDec_fits {α : Type} {fs : List (String × JType)} (ha : ApartAll fs) {dec : FieldDec} {I : String × JType → JV → Prop} (hd : ∀ f ∈ fs, DecKeeps f.2 (I f) (dec f.1))
    {g : (String → Option JV) → α} (l : JObj) : ((decodeKnown (fs.map Prod.fst) dec l (fun _ => none)).map g).isSome ↔ OfType (.record fs) (.obj l) := by
  rw [Option.isSome_map, fits_record]
  exact decodeKnown_fits ha hd l _ (fun _ _ c h => by cases h)

end Oidfed
