import Verif.Lemmas.Slices
/-! Lemmas about applying and verifying policy entries. -/

namespace Oidfed
open Spec

/-- `x >>= f = ok r` means both parts succeed. -/
theorem bind_ok {α β : Type} {x : Res α} {f : α → Res β} {r : β} (h : (x >>= f) = .ok r) :
    ∃ a, x = .ok a ∧ f a = .ok r := by
  cases x with
  | error e => simp [bind, Except.bind] at h
  | ok a => exact ⟨a, rfl, h⟩

theorem get_cons {α : Type} (k k' : String) (v : α) (m : AMap α) :
    AMap.get ((k', v) :: m) k = if k' = k then some v else AMap.get m k := rfl

theorem isZero_iff (v : Val) : (v.isNilIface || v.isZero) = true ↔ Unset v := by
  constructor
  · intro h
    cases v with
    | nil => exact .nil
    | str s => have : s = "" := by simpa [Val.isNilIface, Val.isZero] using h
               subst this; exact .str
    | bool s => have : s = false := by simpa [Val.isNilIface, Val.isZero] using h
                subst this; exact .bool
    | num s => have : s = 0 := by simpa [Val.isNilIface, Val.isZero] using h
               subst this; exact .num
    | int s => have : s = 0 := by simpa [Val.isNilIface, Val.isZero] using h
               subst this; exact .int
    | obj s => have : s = none := by simpa [Val.isNilIface, Val.isZero] using h
               subst this; exact .obj
    | ptr s => have : s = none := by simpa [Val.isNilIface, Val.isZero] using h
               subst this; exact .ptr
    | slice e n xs => have : n = true := by simpa [Val.isNilIface, Val.isZero] using h
                      subst this; exact .slice e xs
  · intro h
    cases h <;> simp [Val.isNilIface, Val.isZero]

/-- An optional operator: absent means no change. -/
def optStep (o : Option Val) (f : Val → Res Cur) (c : Cur) : Res Cur :=
  match o with
  | none => .ok c
  | some v => f v

/-- The operators of an entry, run in the fixed order. -/
theorem applyCur_steps {p : Entry} {c c' : Cur} (h : p.applyCur c = .ok c') :
    ∃ c1 c2 c3 c4 c5 c6,
      optStep (p.get opValue) (applyValue c) c = .ok c1 ∧
      optStep (p.get opAdd) (applyAdd c1) c1 = .ok c2 ∧
      optStep (p.get opDefault) (applyDefault c2) c2 = .ok c3 ∧
      optStep (p.get opOneOf) (fun v => applyOneOf c3 v p.essential) c3 = .ok c4 ∧
      optStep (p.get opSubsetOf) (fun v => applySubsetOf c4 v p.essential) c4 = .ok c5 ∧
      optStep (p.get opSupersetOf) (fun v => applySupersetOf c5 v p.essential) c5 = .ok c6 ∧
      optStep (p.get opEssential) (applyEssential c6) c6 = .ok c' := by
  unfold Entry.applyCur operatorOrder at h
  simp only [applyLoop] at h
  obtain ⟨c1, h1, h⟩ := bind_ok h
  obtain ⟨c2, h2, h⟩ := bind_ok h
  obtain ⟨c3, h3, h⟩ := bind_ok h
  obtain ⟨c4, h4, h⟩ := bind_ok h
  obtain ⟨c5, h5, h⟩ := bind_ok h
  obtain ⟨c6, h6, h⟩ := bind_ok h
  obtain ⟨c7, h7, h⟩ := bind_ok h
  have := Except.ok.inj h
  subst this
  exact ⟨c1, c2, c3, c4, c5, c6, h1, h2, h3, h4, h5, h6, h7⟩

theorem applyCur_of_steps {p : Entry} {c c1 c2 c3 c4 c5 c6 c' : Cur}
    (h1 : optStep (p.get opValue) (applyValue c) c = .ok c1)
    (h2 : optStep (p.get opAdd) (applyAdd c1) c1 = .ok c2)
    (h3 : optStep (p.get opDefault) (applyDefault c2) c2 = .ok c3)
    (h4 : optStep (p.get opOneOf) (fun v => applyOneOf c3 v p.essential) c3 = .ok c4)
    (h5 : optStep (p.get opSubsetOf) (fun v => applySubsetOf c4 v p.essential) c4 = .ok c5)
    (h6 : optStep (p.get opSupersetOf) (fun v => applySupersetOf c5 v p.essential) c5 = .ok c6)
    (h7 : optStep (p.get opEssential) (applyEssential c6) c6 = .ok c') : p.applyCur c = .ok c' := by
  unfold Entry.applyCur operatorOrder
  simp only [applyLoop]
  rw [show applyStep p p.essential c opValue = .ok c1 from h1]
  simp only [bind, Except.bind]
  rw [show applyStep p p.essential c1 opAdd = .ok c2 from h2]
  simp only
  rw [show applyStep p p.essential c2 opDefault = .ok c3 from h3]
  simp only
  rw [show applyStep p p.essential c3 opOneOf = .ok c4 from h4]
  simp only
  rw [show applyStep p p.essential c4 opSubsetOf = .ok c5 from h5]
  simp only
  rw [show applyStep p p.essential c5 opSupersetOf = .ok c6 from h6]
  simp only
  rw [show applyStep p p.essential c6 opEssential = .ok c' from h7]

/-! ## The single operators when they succeed -/

theorem optStep_none {f : Val → Res Cur} {c c' : Cur} (h : optStep none f c = .ok c') : c' = c :=
  (Except.ok.inj h).symm

theorem applyValue_ok {c c' : Cur} {p : Val} (h : applyValue c p = .ok c') :
    (p = .nil ∧ c' = ⟨.nil, false⟩) ∨
    (p ≠ .nil ∧ c'.isSet = true ∧ c'.v ≠ .nil ∧ c'.v.elems = p.elems ∧
      (p.isSlice = false → c'.v = p) ∧
      (p.isSlice = true → ∃ t, slicify c.v = some t ∧ c'.v = .slice t.e false p.elems)) := by
  unfold applyValue at h
  by_cases hn : p = .nil
  · subst hn
    exact .inl ⟨rfl, (Except.ok.inj h).symm⟩
  · right
    rw [if_neg (by rw [isNilIface_iff]; exact hn)] at h
    obtain ⟨r, hr, h⟩ := bind_ok h
    have h := Except.ok.inj h
    subst h
    refine ⟨hn, rfl, ?_⟩
    cases p with
    | slice e n xs =>
      unfold reflectSliceCast at hr
      dsimp only at hr
      cases ht : slicify c.v with
      | none => rw [ht] at hr; simp [castSlc, Except.map] at hr
      | some t =>
        rw [ht] at hr
        cases hc : castSlc ⟨e, n, xs⟩ (some t) with
        | error f => rw [hc] at hr; simp [Except.map] at hr
        | ok s =>
          rw [hc] at hr
          simp only [Except.map] at hr
          have hr := Except.ok.inj hr
          have hs := castSlc_ok hc
          subst hs
          subst hr
          exact ⟨by simp [Slc.toVal], rfl, by simp [Val.isSlice], fun _ => ⟨t, rfl, rfl⟩⟩
    | nil => exact absurd rfl hn
    | str _ | bool _ | num _ | int _ | obj _ | ptr _ =>
      have hr := Except.ok.inj hr
      subst hr
      exact ⟨by simp, rfl, by simp, by simp [Val.isSlice]⟩

theorem applyAdd_ok {c c' : Cur} {p : Val} (h : applyAdd c p = .ok c') :
    (c.v = .nil ∧ c' = ⟨p, !p.isNilIface⟩) ∨
    (c.v ≠ .nil ∧ p = .nil ∧ c' = c) ∨
    (c.v ≠ .nil ∧ p ≠ .nil ∧ c'.isSet = true ∧ ∃ sa n, slicify c.v = some sa ∧
      c'.v = .slice sa.e n (unionElems c.v.elems p.elems) ∧
      (p.elems = [] → n = sa.isNil) ∧ (p.elems ≠ [] → n = false)) := by
  unfold applyAdd at h
  by_cases hn : c.v = .nil
  · rw [if_pos (by rw [isNilIface_iff]; exact hn)] at h
    exact .inl ⟨hn, (Except.ok.inj h).symm⟩
  · right
    rw [if_neg (by rw [isNilIface_iff]; exact hn)] at h
    by_cases hp : p = .nil
    · rw [if_pos (by rw [isNilIface_iff]; exact hp)] at h
      exact .inl ⟨hn, hp, (Except.ok.inj h).symm⟩
    · right
      rw [if_neg (by rw [isNilIface_iff]; exact hp)] at h
      obtain ⟨r, hr, h⟩ := bind_ok h
      have h := Except.ok.inj h
      subst h
      obtain ⟨sa, n, h1, _, h3, h4, h5⟩ := reflectUnion_ok hr
      exact ⟨hn, hp, rfl, sa, n, h1, h3, h4, h5⟩

theorem applyDefault_ok {c c' : Cur} {p : Val} (h : applyDefault c p = .ok c') :
    (c.isSet = false ∧ Unset c.v ∧ c'.isSet = true ∧ c'.v.elems = p.elems ∧
      (p.isSlice = false → c'.v = p) ∧ (p.isSlice = true → ∃ t, slicify c.v = some t ∧ c'.v = .slice t.e false p.elems)) ∨
    (¬ (c.isSet = false ∧ Unset c.v) ∧ c' = c) := by
  unfold applyDefault at h
  by_cases hc : c.isSet = false ∧ Unset c.v
  · left
    rw [if_pos (by simp only [hc.1, Bool.not_false, Bool.true_and]; exact (isZero_iff _).mpr hc.2)] at h
    obtain ⟨r, hr, h⟩ := bind_ok h
    have h := Except.ok.inj h
    subst h
    refine ⟨hc.1, hc.2, rfl, ?_⟩
    cases p with
    | slice e n xs =>
      unfold reflectSliceCast at hr
      dsimp only at hr
      cases ht : slicify c.v with
      | none => rw [ht] at hr; simp [castSlc, Except.map] at hr
      | some t =>
        rw [ht] at hr
        cases hcst : castSlc ⟨e, n, xs⟩ (some t) with
        | error f => rw [hcst] at hr; simp [Except.map] at hr
        | ok s =>
          rw [hcst] at hr
          simp only [Except.map] at hr
          have hr := Except.ok.inj hr
          have hs := castSlc_ok hcst
          subst hs
          subst hr
          exact ⟨rfl, by simp [Val.isSlice], fun _ => ⟨t, rfl, rfl⟩⟩
    | nil | str _ | bool _ | num _ | int _ | obj _ | ptr _ =>
      have hr := Except.ok.inj hr
      subst hr
      exact ⟨rfl, by simp, by simp [Val.isSlice]⟩
  · right
    refine ⟨hc, ?_⟩
    rw [if_neg] at h
    · exact (Except.ok.inj h).symm
    · simp only [Bool.and_eq_true, Bool.not_eq_true', isZero_iff]
      exact hc

theorem applyOneOf_ok {c c' : Cur} {p : Val} {ess : Bool} (h : applyOneOf c p ess = .ok c') :
    c' = c ∧ (p ≠ .nil → (c.isSet = true ∨ ess = true) → c.isSet = true ∧ c.v ∈ p.elems) := by
  unfold applyOneOf at h
  split at h
  · rename_i hc
    simp only [Bool.and_eq_true, Bool.not_eq_true'] at hc
    exact ⟨(Except.ok.inj h).symm, by simp [hc]⟩
  · split at h
    · rename_i _ hp
      exact ⟨(Except.ok.inj h).symm, fun hn => absurd ((isNilIface_iff p).mp hp) hn⟩
    · split at h
      · cases h
      · split at h
        · cases h
        · rename_i h1 h2 h3 h4
          simp only [Bool.not_eq_true', Bool.not_eq_false] at h3 h4
          exact ⟨(Except.ok.inj h).symm, fun _ _ => ⟨h3, (sliceContains_iff _ _).mp h4⟩⟩

theorem applySupersetOf_ok {c c' : Cur} {p : Val} {ess : Bool} (h : applySupersetOf c p ess = .ok c') :
    c' = c ∧ (p ≠ .nil → (c.isSet = true ∨ ess = true) → c.isSet = true ∧ ∀ x ∈ p.elems, x ∈ c.v.elems) := by
  unfold applySupersetOf at h
  split at h
  · rename_i hc
    simp only [Bool.and_eq_true, Bool.not_eq_true'] at hc
    exact ⟨(Except.ok.inj h).symm, by simp [hc]⟩
  · split at h
    · rename_i _ hp
      exact ⟨(Except.ok.inj h).symm, fun hn => absurd ((isNilIface_iff p).mp hp) hn⟩
    · split at h
      · cases h
      · rename_i h1 h2 h3
        obtain ⟨ok, hok, h⟩ := bind_ok h
        cases ok with
        | false => cases h
        | true =>
          simp only [Bool.not_eq_true', Bool.not_eq_false] at h3
          exact ⟨(Except.ok.inj h).symm, fun _ _ => ⟨h3, (reflectIsSubsetOf_true.mp hok).2⟩⟩

theorem applySubsetOf_ok {c c' : Cur} {p : Val} {ess : Bool} (h : applySubsetOf c p ess = .ok c') :
    (p ≠ .nil ∧ c.isSet = true ∧ c'.isSet = true ∧ ∃ sa, slicify c.v = some sa ∧
      c'.v = .slice sa.e (interElems c.v.elems p.elems).isEmpty (interElems c.v.elems p.elems)) ∨
    (c' = c ∧ (p = .nil ∨ (c.isSet = false ∧ ess = false))) := by
  unfold applySubsetOf at h
  split at h
  · rename_i hc
    simp only [Bool.and_eq_true, Bool.not_eq_true'] at hc
    exact .inr ⟨(Except.ok.inj h).symm, .inr hc⟩
  · split at h
    · rename_i _ hp
      exact .inr ⟨(Except.ok.inj h).symm, .inl ((isNilIface_iff p).mp hp)⟩
    · split at h
      · cases h
      · rename_i h1 h2 h3
        left
        simp only [Bool.not_eq_true', Bool.not_eq_false] at h3
        obtain ⟨r, hr, h⟩ := bind_ok h
        have h := Except.ok.inj h
        subst h
        cases ha : slicify c.v with
        | none => rw [ha] at hr; simp [intersectSlc] at hr
        | some sa =>
          rw [ha] at hr
          obtain ⟨sb, hb, hr⟩ := intersectSlc_ok hr
          subst hr
          refine ⟨by intro hn; exact h2 ((isNilIface_iff p).mpr hn), h3, rfl, sa, rfl, ?_⟩
          rw [← slicify_xs ha, ← slicify_xs hb]
          rfl

theorem applyEssential_ok {c c' : Cur} {p : Val} (h : applyEssential c p = .ok c') :
    c' = c ∧ (p = .bool true → c.v.isSlice = true ∨ ¬ Unset c.v) := by
  unfold applyEssential at h
  split at h
  · rename_i hp
    exact ⟨(Except.ok.inj h).symm, fun hb => by rw [hb] at hp; simp [Val.isNilIface] at hp⟩
  · split at h
    · cases h
    · rename_i h1 h2
      refine ⟨(Except.ok.inj h).symm, ?_⟩
      intro hb
      subst hb
      by_cases hs : c.v.isSlice = true
      · exact .inl hs
      · right
        intro hu
        apply h2
        have := (isZero_iff c.v).mpr hu
        simp only [Bool.not_eq_true] at hs
        simp only [hs, Bool.not_false, Bool.true_and, this, Val.asBool]
        rfl

end Oidfed
