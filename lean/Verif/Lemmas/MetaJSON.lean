import Verif.Spec.MetaJSON
import Verif.Lemmas.JSONObject
/-!
# Lemmas about metadata as JSON
-/

namespace Oidfed
open Spec

/-- Tables without repeated tags and names. -/
structure TableOk (S : List MField) : Prop where
  tags : (S.map MField.tag).Nodup
  names : (S.map MField.name).Nodup
  noExtra : ∀ f ∈ S, f.name ≠ "Extra"

theorem find_by {α : Type} (g : α → String) : ∀ {S : List α}, (S.map g).Nodup → ∀ {f : α}, f ∈ S →
    S.find? (fun x => g x == g f) = some f := by
  intro S
  induction S with
  | nil => intro _ f hf; cases hf
  | cons a S ih =>
    intro hn f hf
    simp only [List.map_cons, List.nodup_cons] at hn
    rw [List.find?_cons]
    by_cases e : g a = g f
    · have : a = f := by
        rcases List.mem_cons.mp hf with h | h
        · exact h.symm
        · exfalso; apply hn.1; rw [e]; exact List.mem_map.mpr ⟨f, h, rfl⟩
      simp [this]
    · have e' : (g a == g f) = false := by simpa using e
      rw [e']
      rcases List.mem_cons.mp hf with h | h
      · exact absurd (by rw [h]) e
      · exact ih hn.2 h

/-- Decoding when every known member is spelt exactly. -/
theorem decodeKnown_exact (tags : List String) (dec : FieldDec) : ∀ (l : JObj) (f g : String → Option JV),
    (l.map Prod.fst).Nodup →
    (∀ kv ∈ l, kv.1 ∈ tags ∨ fieldFor tags kv.1 = none) →
    decodeKnown tags dec l f = some g →
    (∀ kv ∈ l, kv.1 ∈ tags → dec kv.1 (f kv.1) kv.2 = some (g kv.1)) ∧
    (∀ t, (t ∉ tags ∨ t ∉ l.map Prod.fst) → g t = f t) := by
  intro l
  induction l with
  | nil =>
    intro f g _ _ h
    simp only [decodeKnown, Option.some.injEq] at h
    subst h
    exact ⟨by simp, fun _ _ => rfl⟩
  | cons a l ih =>
    obtain ⟨k, v⟩ := a
    intro f g hn hx h
    simp only [List.map_cons, List.nodup_cons] at hn
    by_cases hk : k ∈ tags
    · have hf : fieldFor tags k = some k := by unfold fieldFor; rw [if_pos hk]
      simp only [decodeKnown, hf] at h
      split at h
      · cases h
      · rename_i x hx'
        obtain ⟨h1, h2⟩ := ih _ _ hn.2 (fun kv hkv => hx kv (List.mem_cons_of_mem _ hkv)) h
        have hgk : g k = x := by rw [h2 k (.inr hn.1)]; simp
        refine ⟨?_, ?_⟩
        · intro kv hkv ht
          rcases List.mem_cons.mp hkv with e | e
          · subst e; simp only; rw [hgk]; exact hx'
          · have := h1 kv e ht
            have ne : kv.1 ≠ k := by
              intro e'; apply hn.1; rw [← e']; exact List.mem_map.mpr ⟨kv, e, rfl⟩
            simp only [ne, if_false] at this
            exact this
        · intro t ht
          have ne : t ≠ k := by
            rintro rfl
            rcases ht with ht | ht
            · exact ht hk
            · exact ht (by simp)
          rw [h2 t (by rcases ht with ht | ht
                       · exact .inl ht
                       · right; intro hm; exact ht (by simp [hm]))]
          simp [ne]
    · have hf : fieldFor tags k = none := by
        rcases hx (k, v) (List.mem_cons_self) with h | h
        · exact absurd h hk
        · exact h
      simp only [decodeKnown, hf] at h
      obtain ⟨h1, h2⟩ := ih _ _ hn.2 (fun kv hkv => hx kv (List.mem_cons_of_mem _ hkv)) h
      refine ⟨?_, ?_⟩
      · intro kv hkv ht
        rcases List.mem_cons.mp hkv with e | e
        · subst e; exact absurd ht hk
        · exact h1 kv e ht
      · intro t ht
        apply h2
        rcases ht with ht | ht
        · exact .inl ht
        · right; intro hm; exact ht (by simp [hm])

/-- The converse: if each exactly spelt member is decoded, the object is. -/
theorem decodeKnown_ok (tags : List String) (dec : FieldDec) : ∀ (l : JObj) (f : String → Option JV),
    (l.map Prod.fst).Nodup →
    (∀ kv ∈ l, (kv.1 ∈ tags ∧ (dec kv.1 (f kv.1) kv.2).isSome) ∨ fieldFor tags kv.1 = none) →
    ∃ g, decodeKnown tags dec l f = some g := by
  intro l
  induction l with
  | nil => intro f _ _; exact ⟨f, rfl⟩
  | cons a l ih =>
    obtain ⟨k, v⟩ := a
    intro f hn h
    simp only [List.map_cons, List.nodup_cons] at hn
    rcases h (k, v) (List.mem_cons_self) with ⟨hk, hd⟩ | hf
    · have hf : fieldFor tags k = some k := by unfold fieldFor; rw [if_pos hk]
      obtain ⟨x, hx⟩ := Option.isSome_iff_exists.mp hd
      simp only at hx
      simp only [decodeKnown, hf, hx]
      apply ih _ hn.2
      intro kv hkv
      have ne : kv.1 ≠ k := by
        intro e'; apply hn.1; rw [← e']; exact List.mem_map.mpr ⟨kv, hkv, rfl⟩
      simp only [ne, if_false]
      exact h kv (List.mem_cons_of_mem _ hkv)
    · simp only [decodeKnown, hf]
      exact ih f hn.2 (fun kv hkv => h kv (List.mem_cons_of_mem _ hkv))

theorem decStrings_spec : ∀ (l : List JV) (ss : List String), decStrings l = some ss →
    (∀ j ∈ l, j = .null ∨ ∃ s, j = .str s) ∧ ss.map .str = l.map blankNull := by
  intro l
  induction l with
  | nil => intro ss h; simp only [decStrings, Option.some.injEq] at h; subst h; simp
  | cons a l ih =>
    intro ss h
    cases a with
    | str s =>
      simp only [decStrings, Option.map_eq_some_iff] at h
      obtain ⟨r, h1, rfl⟩ := h
      obtain ⟨h2, h3⟩ := ih r h1
      exact ⟨by simpa using h2, by simp [h3, blankNull]⟩
    | null =>
      simp only [decStrings, Option.map_eq_some_iff] at h
      obtain ⟨r, h1, rfl⟩ := h
      obtain ⟨h2, h3⟩ := ih r h1
      exact ⟨by simpa using h2, by simp [h3, blankNull]⟩
    | _ => simp [decStrings] at h

theorem decStrings_strs (ss : List String) : decStrings (ss.map .str) = some ss := by
  induction ss with
  | nil => rfl
  | cons a l ih => simp [decStrings, ih]

/-- Decoding a field gives nil for null and otherwise the value read. -/
theorem decMeta_spec {opq : Opaque} {k : MKind} {v : JV} {r : Option JV} (h : decMeta opq k v = some r) :
    (v = .null ∧ r = none) ∨ (v ≠ .null ∧ ∃ w, r = some w ∧ Reads opq k v w) := by
  unfold decMeta at h
  split at h
  · cases h; exact .inl ⟨rfl, rfl⟩
  · cases h; exact .inr ⟨by simp, _, rfl, rfl, _, rfl⟩
  · cases h; exact .inr ⟨by simp, _, rfl, rfl, _, rfl⟩
  · split at h
    · cases h; exact .inr ⟨by simp, _, rfl, rfl, _, rfl⟩
    · cases h
  · simp only [Option.map_eq_some_iff] at h
    obtain ⟨ss, h1, rfl⟩ := h
    obtain ⟨h2, h3⟩ := decStrings_spec _ _ h1
    exact .inr ⟨by simp, _, rfl, _, rfl, h2, by rw [h3]⟩
  · rename_i hv
    simp only [Option.map_eq_some_iff] at h
    obtain ⟨w, h1, rfl⟩ := h
    exact .inr ⟨fun e => by simp [e] at hv, w, rfl, h1⟩
  · rename_i hv
    simp only [Option.map_eq_some_iff] at h
    obtain ⟨w, h1, rfl⟩ := h
    exact .inr ⟨fun e => by simp [e] at hv, w, rfl, h1⟩
  · cases h

theorem exact_fieldFor {S : List MField} {l : JObj} (h : ExactNames S l) {kv : String × JV} (hkv : kv ∈ l) :
    kv.1 ∈ S.map MField.tag ∨ fieldFor (S.map MField.tag) kv.1 = none := by
  by_cases hm : kv.1 ∈ S.map MField.tag
  · exact .inl hm
  · right
    apply fieldFor_none
    intro t ht e
    obtain ⟨f, hf, rfl⟩ := List.mem_map.mp ht
    exact hm (by rw [← h kv hkv f hf e]; exact ht)

theorem fromPtrs_val {S : List MField} (ok : TableOk S) (o : JStruct) {f : MField} (hf : f ∈ S) :
    (fromPtrs S S o).val f.name = (o.known f.tag).or f.kind.zero := by
  simp only [fromPtrs, find_by MField.name ok.names hf]

theorem fromPtrs_set {S : List MField} (ok : TableOk S) (o : JStruct) {f : MField} (hf : f ∈ S) :
    f.name ∈ (fromPtrs S S o).wasSet ↔ (o.known f.tag).isSome ∨ f.name ∈ o.extra.keys := by
  have hne : f.name ∉ (if o.extra.isEmpty then [] else ["Extra"]) := by
    split
    · simp
    · simpa using ok.noExtra f hf
  simp only [fromPtrs, List.mem_append, hne, or_false]
  refine or_congr ?_ Iff.rfl
  rw [List.mem_map]
  constructor
  · rintro ⟨p, hp, e⟩
    simp only [List.mem_filter, Bool.and_eq_true] at hp
    have h1 := find_by MField.name ok.names hf
    rw [← e, find_by MField.name ok.names hp.1] at h1
    cases h1
    exact hp.2.2
  · intro h
    refine ⟨f, ?_, rfl⟩
    simp only [List.mem_filter, Bool.and_eq_true, List.any_eq_true, beq_iff_eq]
    exact ⟨hf, ⟨f, hf, rfl⟩, h⟩

theorem intoMap_none (v : JV) : intoMap none v = v := by cases v <;> rfl

/-- What is read from an object with unique, exactly spelt names. -/
theorem read_spec {opq : Opaque} {S : List MField} (ok : TableOk S) {l : JObj} {m : MStruct} (hu : UniqueNames l)
    (hx : ExactNames S l) (h : readMeta opq S S l = some m) :
    ∃ o : JStruct, m = fromPtrs S S o ∧
      (∀ f ∈ S, ∀ v, (f.tag, v) ∈ l → decMeta opq f.kind v = some (o.known f.tag)) ∧
      (∀ f ∈ S, f.tag ∉ l.map Prod.fst → o.known f.tag = none) ∧
      o.extra = (objMap l).filter (fun kv => !((S.map MField.tag).contains kv.1)) := by
  simp only [readMeta, Option.map_eq_some_iff] at h
  obtain ⟨o, h1, rfl⟩ := h
  obtain ⟨h2, h3⟩ := unmarshal_some h1
  obtain ⟨h4, h5⟩ := decodeKnown_exact _ _ _ _ _ hu (fun kv hkv => exact_fieldFor hx hkv) h2
  refine ⟨o, rfl, ?_, ?_, h3⟩
  · intro f hf v hv
    have := h4 _ hv (List.mem_map.mpr ⟨f, hf, rfl⟩)
    simp only [ptrDec, find_by MField.tag ok.tags hf, intoMap_none, ite_self] at this
    exact this
  · intro f _ hn
    exact h5 f.tag (.inr hn)

theorem extra_keys {S : List MField} {l : JObj} {k : String}
    (h : k ∈ AMap.keys ((objMap l).filter (fun kv => !((S.map MField.tag).contains kv.1)))) :
    k ∈ l.map Prod.fst ∧ k ∉ S.map MField.tag := by
  obtain ⟨x, hx, rfl⟩ := List.mem_map.mp h
  simp only [List.mem_filter, Bool.not_eq_true', List.contains_eq_mem, decide_eq_false_iff_not] at hx
  refine ⟨?_, hx.2⟩
  have h1 : AMap.get (objMap l) x.1 ≠ none := by
    intro e
    rw [jget_none_iff] at e
    exact e (List.mem_map.mpr ⟨x, hx.1, rfl⟩)
  rw [objMap_get] at h1
  exact Classical.byContradiction fun hc => h1 ((lastMember_none_iff l x.1).mpr hc)

/-- The values read are read again unchanged. -/
theorem reads_again {opq : Opaque} {k : MKind} {v w : JV} (h : Reads opq k v w)
    (hq : ∀ v w, opq k v = some w → opq k w = some w ∧ w ≠ .null) (hv : decMeta opq k v = some (some w)) :
    decMeta opq k w = some (some w) := by
  cases k with
  | str => obtain ⟨rfl, _⟩ := h; exact hv
  | bool => obtain ⟨rfl, _⟩ := h; exact hv
  | int => obtain ⟨rfl, _⟩ := h; exact hv
  | strs =>
    obtain ⟨l, rfl, _, rfl⟩ := h
    simp only [decMeta, Option.map_eq_some_iff] at hv
    obtain ⟨ss, h1, h2⟩ := hv
    simp only [Option.some.injEq, JV.arr.injEq] at h2
    rw [← h2]
    simp only [decMeta, decStrings_strs, Option.map_some]
  | map =>
    have := hq v w h
    unfold decMeta
    split <;> simp_all
  | ptr =>
    have := hq v w h
    unfold decMeta
    split <;> simp_all

theorem zero_again (opq : Opaque) (k : MKind) (w : JV) (h : k.zero = some w) : decMeta opq k w = some (some w) := by
  cases k <;> simp only [MKind.zero, Option.some.injEq, reduceCtorEq] at h <;> subst h <;> rfl

/-! ## Entity types -/

theorem etag_fold {t u : EType} (h : foldName t.tag = foldName u.tag) : t = u := by
  revert h
  cases t <;> cases u <;> decide

/-- A member goes to the entity type whose name it has, upper and lower case not being told apart. -/
theorem typeFor_iff (k : String) (t : EType) : typeFor k = some t ↔ foldName k = foldName t.tag := by
  have hall : ∀ u : EType, u ∈ EType.all := fun u => by cases u <;> decide
  unfold typeFor
  constructor
  · intro h
    split at h
    · rename_i u hu
      cases h
      have := List.find?_some hu
      simp only [beq_iff_eq] at this
      rw [this]
    · have := List.find?_some h
      simp only [beq_iff_eq] at this
      exact this.symm
  · intro h
    split
    · rename_i u hu
      have := List.find?_some hu
      simp only [beq_iff_eq] at this
      rw [← this] at h
      rw [etag_fold h]
    · cases hf : EType.all.find? (fun u => foldName u.tag == foldName k) with
      | none =>
        rw [List.find?_eq_none] at hf
        exact absurd (beq_iff_eq.mpr h.symm) (hf t (hall t))
      | some u =>
        have := List.find?_some hf
        simp only [beq_iff_eq] at this
        rw [h] at this
        rw [etag_fold this]

/-- The values stated for an entity type, in order. -/
def membersFor (t : EType) (l : JObj) : List JV := l.filterMap (fun kv => if typeFor kv.1 = some t then some kv.2 else none)

/-- Decoding them one after the other. -/
def typeSeq (opq : Opaque) (t : EType) : List JV → Option MStruct → Option (Option MStruct)
  | [], x => some x
  | v :: l, x => (readType opq t x v).bind (typeSeq opq t l)

theorem decodeTypes_iff (opq : Opaque) : ∀ (l : JObj) (f g : EType → Option MStruct),
    decodeTypes opq l f = some g ↔ ∀ t, typeSeq opq t (membersFor t l) (f t) = some (g t) := by
  intro l
  induction l with
  | nil =>
    intro f g
    simp only [decodeTypes, membersFor, List.filterMap_nil, typeSeq, Option.some.injEq]
    exact ⟨fun h t => by rw [h], fun h => funext h⟩
  | cons a l ih =>
    obtain ⟨k, v⟩ := a
    intro f g
    simp only [decodeTypes]
    cases hk : typeFor k with
    | none =>
      simp only
      rw [ih f g]
      have : ∀ t, membersFor t ((k, v) :: l) = membersFor t l := by
        intro t
        simp only [membersFor, List.filterMap_cons, hk]
        rfl
      simp only [this]
    | some t =>
      simp only
      have h1 : membersFor t ((k, v) :: l) = v :: membersFor t l := by
        simp only [membersFor, List.filterMap_cons, hk, if_true]
      have h2 : ∀ u, u ≠ t → membersFor u ((k, v) :: l) = membersFor u l := by
        intro u hu
        simp only [membersFor, List.filterMap_cons, hk, Option.some.injEq]
        rw [if_neg (fun e => hu e.symm)]
      cases hr : readType opq t (f t) v with
      | none =>
        simp only
        constructor
        · intro h; cases h
        · intro h
          have := h t
          rw [h1, typeSeq, hr] at this
          cases this
      | some x =>
        simp only
        rw [ih]
        constructor
        · intro h u
          have := h u
          by_cases hu : u = t
          · subst hu
            rw [if_pos rfl] at this
            rw [h1, typeSeq, hr]
            exact this
          · rw [if_neg hu] at this
            rw [h2 u hu]
            exact this
        · intro h u
          have := h u
          by_cases hu : u = t
          · subst hu
            rw [h1, typeSeq, hr] at this
            rw [if_pos rfl]
            exact this
          · rw [h2 u hu] at this
            rw [if_neg hu]
            exact this

theorem readMetadata_iff {opq : Opaque} {l : JObj} {m : JMetadata} : readMetadata opq l = some m ↔
    (∀ t, typeSeq opq t (membersFor t l) none = some (m.known t)) ∧ m.extra = (objMap l).filter (fun kv => !((EType.all.map EType.tag).contains kv.1)) := by
  unfold readMetadata
  rw [Option.map_eq_some_iff]
  constructor
  · rintro ⟨f, hf, rfl⟩
    exact ⟨(decodeTypes_iff opq l _ f).mp hf, rfl⟩
  · rintro ⟨h1, h2⟩
    refine ⟨m.known, (decodeTypes_iff opq l _ _).mpr h1, ?_⟩
    rw [← h2]

/-- With unique and exactly spelt names at most one member counts. -/
theorem membersFor_exact {t : EType} : ∀ {l : JObj}, UniqueNames l → (∀ kv ∈ l, foldName kv.1 = foldName t.tag → kv.1 = t.tag) →
    membersFor t l = (AMap.get l t.tag).toList := by
  intro l
  induction l with
  | nil => intro _ _; rfl
  | cons a l ih =>
    obtain ⟨k, v⟩ := a
    intro hu hx
    unfold UniqueNames at hu ih
    rw [List.map_cons, List.nodup_cons] at hu
    have ih' := ih hu.2 (fun kv hkv => hx kv (List.mem_cons_of_mem _ hkv))
    rw [jget_cons]
    by_cases hk : typeFor k = some t
    · have e : k = t.tag := hx (k, v) (List.mem_cons_self) ((typeFor_iff k t).mp hk)
      have hn : AMap.get l t.tag = none := by rw [jget_none_iff, ← e]; exact hu.1
      rw [hn] at ih'
      have : membersFor t ((k, v) :: l) = v :: membersFor t l := by simp only [membersFor, List.filterMap_cons, hk, if_true]
      rw [this, ih', if_pos e]
      rfl
    · have hne : k ≠ t.tag := by
        intro e
        exact hk ((typeFor_iff k t).mpr (by rw [e]))
      have : membersFor t ((k, v) :: l) = membersFor t l := by simp only [membersFor, List.filterMap_cons, if_neg hk]
      rw [this, ih', if_neg hne]

end Oidfed
