import Verif.Spec.Policy
/-! Lemmas about the reflective slice functions. -/

namespace Oidfed

theorem isNilIface_iff (v : Val) : v.isNilIface = true ↔ v = .nil := by cases v <;> simp [Val.isNilIface]

theorem isNilIface_false (v : Val) : v.isNilIface = false ↔ v ≠ .nil := by cases v <;> simp [Val.isNilIface]

theorem slicify_none (v : Val) : slicify v = none ↔ v = .nil := by cases v <;> simp [slicify]

theorem slicify_xs {v : Val} {s : Slc} (h : slicify v = some s) : s.xs = v.elems := by
  cases v <;> simp_all [slicify, Val.elems] <;> subst h <;> rfl

theorem slicify_some {v : Val} (h : v ≠ .nil) : ∃ s, slicify v = some s ∧ s.xs = v.elems := by
  cases hs : slicify v with
  | none => exact absurd ((slicify_none v).mp hs) h
  | some s => exact ⟨s, rfl, slicify_xs hs⟩

theorem sliceContains_iff (x v : Val) : sliceContains x (slicify v) = true ↔ x ∈ v.elems := by
  cases hs : slicify v with
  | none => rw [(slicify_none v).mp hs]; simp [sliceContains, Val.elems]
  | some s => simp [sliceContains, slicify_xs hs]

theorem castSlc_ok {s t r : Slc} (h : castSlc s (some t) = .ok r) : r = ⟨t.e, false, s.xs⟩ := by
  unfold castSlc at h
  dsimp only at h
  split at h
  · exact (Except.ok.inj h).symm
  · exact absurd h (by simp)

/-- Every `slicify`d value is a slice again with the same content. -/
theorem slicify_toVal (s : Slc) : slicify s.toVal = some s := rfl

theorem elems_toVal (s : Slc) : s.toVal.elems = s.xs := rfl

theorem toVal_ne_nil (s : Slc) : s.toVal ≠ .nil := by simp [Slc.toVal]

/-! ## union -/

theorem unionLoop_mem (bs : List Val) : ∀ (out : List Val) (x : Val), x ∈ unionLoop out bs ↔ x ∈ out ∨ x ∈ bs := by
  induction bs with
  | nil => intro out x; simp [unionLoop]
  | cons b bs ih =>
    intro out x
    rw [unionLoop, ih]
    split
    · rename_i h
      have : b ∈ out := by simpa using h
      constructor
      · rintro (h | h) <;> simp [h]
      · rintro (h | h)
        · exact .inl h
        · rcases List.mem_cons.mp h with rfl | h
          · exact .inl this
          · exact .inr h
    · simp [or_assoc]

theorem unionLoop_prefix (bs : List Val) : ∀ out : List Val, out <+: unionLoop out bs := by
  induction bs with
  | nil => intro out; exact List.prefix_refl out
  | cons b bs ih =>
    intro out
    rw [unionLoop]
    split
    · exact ih out
    · exact (List.prefix_append out [b]).trans (ih _)

theorem unionLoop_sub (bs : List Val) : ∀ out : List Val, (∀ x ∈ bs, x ∈ out) → unionLoop out bs = out := by
  induction bs with
  | nil => intro out _; rfl
  | cons b bs ih =>
    intro out h
    rw [unionLoop, if_pos (by simpa using h b (by simp))]
    exact ih out (fun x hx => h x (by simp [hx]))

theorem unionLoop_nodup (bs : List Val) : ∀ out : List Val, out.Nodup → (unionLoop out bs).Nodup := by
  induction bs with
  | nil => intro out h; exact h
  | cons b bs ih =>
    intro out h
    rw [unionLoop]
    split
    · exact ih out h
    · rename_i hb
      refine ih _ ?_
      have hb' : b ∉ out := by simpa using hb
      rw [List.nodup_append]
      exact ⟨h, by simp, by rintro a ha c hc rfl; simp at hc; exact hb' (hc ▸ ha)⟩

/-- The elements of the union of two element lists as `ReflectUnion` orders them. -/
def unionElems (a b : List Val) : List Val :=
  if b = [] then a else if a = [] then b else unionLoop a b

theorem unionElems_mem (a b : List Val) (x : Val) : x ∈ unionElems a b ↔ x ∈ a ∨ x ∈ b := by
  unfold unionElems
  split
  · rename_i h; simp [h]
  · split
    · rename_i h; simp [h]
    · exact unionLoop_mem b a x

theorem unionElems_prefix (a b : List Val) : a <+: unionElems a b := by
  unfold unionElems
  split
  · exact List.prefix_refl a
  · split
    · rename_i h; rw [h]; exact List.nil_prefix
    · exact unionLoop_prefix b a

theorem unionElems_sub {a b : List Val} (h : ∀ x ∈ b, x ∈ a) : unionElems a b = a := by
  unfold unionElems
  split
  · rfl
  · rename_i hb
    split
    · rename_i ha
      subst ha
      exact (List.eq_nil_iff_forall_not_mem.mpr (fun x hx => by simpa using h x hx))
    · exact unionLoop_sub b a h

theorem unionElems_nodup {a b : List Val} (ha : a.Nodup) (hb : b.Nodup) : (unionElems a b).Nodup := by
  unfold unionElems
  split
  · exact ha
  · split
    · exact hb
    · exact unionLoop_nodup b a ha

/-- What a successful `ReflectUnion` returns. -/
theorem reflectUnion_ok {a b r : Val} (h : reflectUnion a b = .ok r) :
    ∃ sa n, slicify a = some sa ∧ b ≠ .nil ∧ r = .slice sa.e n (unionElems a.elems b.elems) ∧
      (b.elems = [] → n = sa.isNil) ∧ (b.elems ≠ [] → n = false) := by
  unfold reflectUnion at h
  cases hb : slicify b with
  | none => rw [hb] at h; cases ha : slicify a <;> rw [ha] at h <;> simp [unionSlc, Except.map] at h
  | some sb =>
    cases ha : slicify a with
    | none => rw [ha, hb] at h; simp [unionSlc, Except.map] at h
    | some sa =>
      have hxa := slicify_xs ha
      have hxb := slicify_xs hb
      have hbn : b ≠ .nil := fun hn => by rw [(slicify_none b).mpr hn] at hb; cases hb
      rw [ha, hb] at h
      unfold unionSlc at h
      dsimp only at h
      by_cases hbe : sb.xs = []
      · simp only [hbe, List.isEmpty_nil, if_true, Except.map] at h
        have h := Except.ok.inj h
        refine ⟨sa, sa.isNil, rfl, hbn, ?_, fun _ => rfl, fun hc => absurd (hxb ▸ hbe) hc⟩
        rw [← h, unionElems, if_pos (hxb ▸ hbe), ← hxa]; rfl
      · have hbe' : sb.xs.isEmpty = false := by simpa using hbe
        rw [hbe'] at h
        simp only [Bool.false_eq_true, if_false] at h
        have key : ∀ b' : Slc, b'.xs = sb.xs → b'.e = sa.e → b'.isNil = false ∨ ¬ sa.xs = [] →
            (Except.map Slc.toVal (if sa.xs.isEmpty = true then (Except.ok b' : Res Slc)
              else .ok ⟨sa.e, false, unionLoop sa.xs b'.xs⟩) = .ok r) →
            r = .slice sa.e false (unionElems a.elems b.elems) := by
          intro b' h1 h2 h3 h4
          by_cases hae : sa.xs = []
          · rw [hae] at h4
            simp only [List.isEmpty_nil, if_true, Except.map] at h4
            have h4 := Except.ok.inj h4
            rcases h3 with h3 | h3
            · rw [← h4, unionElems, if_neg (hxb ▸ hbe), if_pos (hxa ▸ hae), ← hxb, ← h1, ← h2, ← h3]; rfl
            · exact absurd hae h3
          · have hae' : sa.xs.isEmpty = false := by simpa using hae
            rw [hae'] at h4
            simp only [Bool.false_eq_true, if_false, Except.map] at h4
            have h4 := Except.ok.inj h4
            rw [← h4, unionElems, if_neg (hxb ▸ hbe), if_neg (hxa ▸ hae), ← hxb, ← hxa, ← h1]; rfl
        refine ⟨sa, false, rfl, hbn, ?_, fun hc => absurd (hxb.trans hc) hbe, fun _ => rfl⟩
        by_cases hc : (sa.xs.isEmpty || sa.e != sb.e) = true
        · rw [if_pos hc] at h
          cases hcast : castSlc sb (some sa) with
          | error f => rw [hcast] at h; simp [bind, Except.bind, Except.map] at h
          | ok b' =>
            rw [hcast] at h
            simp only [bind, Except.bind] at h
            have := castSlc_ok hcast
            exact key b' (by rw [this]) (by rw [this]) (.inl (by rw [this])) h
        · rw [if_neg hc] at h
          simp only [bind, Except.bind] at h
          simp only [Bool.or_eq_true, List.isEmpty_iff, bne_iff_ne, ne_eq, not_or, Decidable.not_not] at hc
          exact key sb rfl hc.2.symm (.inr hc.1) h

/-! ## intersection -/

/-- What a successful intersection of slices returns. -/
theorem intersectSlc_ok {sa : Slc} {ob : Option Slc} {r : Slc} (h : intersectSlc (some sa) ob = .ok r) :
    ∃ sb, ob = some sb ∧ r = ⟨sa.e, (sa.xs.filter (fun x => sb.xs.contains x)).isEmpty,
      sa.xs.filter (fun x => sb.xs.contains x)⟩ := by
  cases ob with
  | none => simp [intersectSlc] at h
  | some sb =>
    unfold intersectSlc at h
    dsimp only at h
    by_cases hc : (sa.e != sb.e) = true
    · rw [if_pos hc] at h
      cases hcast : castSlc sb (some sa) with
      | error f => rw [hcast] at h; simp [bind, Except.bind] at h
      | ok b' =>
        rw [hcast] at h
        simp only [bind, Except.bind] at h
        have := castSlc_ok hcast
        subst this
        exact ⟨sb, rfl, (Except.ok.inj h).symm⟩
    · rw [if_neg hc] at h
      simp only [bind, Except.bind] at h
      exact ⟨sb, rfl, (Except.ok.inj h).symm⟩

/-- The elements of `a` that are in `b`, in the order of `a`. -/
def interElems (a b : List Val) : List Val := a.filter (fun x => b.contains x)

theorem interElems_mem (a b : List Val) (x : Val) : x ∈ interElems a b ↔ x ∈ a ∧ x ∈ b := by
  simp [interElems]

theorem interElems_sub {a b : List Val} (h : ∀ x ∈ a, x ∈ b) : interElems a b = a := by
  unfold interElems
  exact List.filter_eq_self.mpr (fun x hx => by simpa using h x hx)

theorem interElems_nodup {a b : List Val} (h : a.Nodup) : (interElems a b).Nodup := h.filter _

theorem reflectIntersect_ok {a b r : Val} (h : reflectIntersect a b = .ok r) :
    ∃ sa, slicify a = some sa ∧ b ≠ .nil ∧
      r = .slice sa.e (interElems a.elems b.elems).isEmpty (interElems a.elems b.elems) := by
  unfold reflectIntersect at h
  cases ha : slicify a with
  | none => rw [ha] at h; simp [intersectSlc, Except.map] at h
  | some sa =>
    rw [ha] at h
    cases hi : intersectSlc (some sa) (slicify b) with
    | error f => rw [hi] at h; simp [Except.map] at h
    | ok r' =>
      rw [hi] at h
      simp only [Except.map] at h
      have h := Except.ok.inj h
      obtain ⟨sb, hb, hr⟩ := intersectSlc_ok hi
      have hbn : b ≠ .nil := fun hn => by rw [(slicify_none b).mpr hn] at hb; cases hb
      refine ⟨sa, rfl, hbn, ?_⟩
      rw [← h, hr, ← slicify_xs ha, ← slicify_xs hb]
      rfl

theorem reflectIsSubsetOf_true {a b : Val} :
    reflectIsSubsetOf a b = .ok true ↔ a ≠ .nil ∧ ∀ x ∈ a.elems, x ∈ b.elems := by
  unfold reflectIsSubsetOf
  cases ha : slicify a with
  | none => simp [(slicify_none a).mp ha]
  | some sa =>
    have hn : a ≠ .nil := fun hn => by rw [(slicify_none a).mpr hn] at ha; cases ha
    simp only [Except.ok.injEq, List.all_eq_true, sliceContains_iff, slicify_xs ha]
    simp [hn]

/-- `SliceEqual` in terms of elements. -/
theorem sliceEqual_iff (a b : Val) : sliceEqual a b = true ↔
    (a = .nil ↔ b = .nil) ∧ a.elems.length = b.elems.length ∧ ∀ x ∈ a.elems, x ∈ b.elems := by
  unfold sliceEqual
  cases ha : slicify a with
  | none =>
    have := (slicify_none a).mp ha
    subst this
    cases hb : slicify b with
    | none => simp [(slicify_none b).mp hb, Val.elems]
    | some sb =>
      have hn : b ≠ .nil := fun hn => by rw [(slicify_none b).mpr hn] at hb; cases hb
      simp [hn]
  | some sa =>
    have hna : a ≠ .nil := fun hn => by rw [(slicify_none a).mpr hn] at ha; cases ha
    cases hb : slicify b with
    | none => simp [hna, (slicify_none b).mp hb]
    | some sb =>
      have hnb : b ≠ .nil := fun hn => by rw [(slicify_none b).mpr hn] at hb; cases hb
      simp [hna, hnb, slicify_xs ha, slicify_xs hb]

end Oidfed
