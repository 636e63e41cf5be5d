import Verif.Lemmas.Verify
/-! What applying a verified entry guarantees. -/

namespace Oidfed
open Spec

theorem essential_iff (p : Entry) : p.essential = true ↔ Essential p := by
  unfold Entry.essential Essential
  rw [show p.get opEssential = p.get "essential" from rfl]
  cases p.get "essential" with
  | none => simp
  | some v => cases v <;> simp

/-- Flag and value agree: an attribute not marked as set has the zero value. -/
def FlagOk (c : Cur) : Prop := c.isSet = false → Unset c.v

/-- The invariant relating the running state to whether the attribute was given originally. -/
def Keeps (isSet : Bool) (c : Cur) : Prop := isSet = true → c.isSet = true ∨ c.v = .nil

theorem value_inv {p : Entry} {b : Bool} {c c1 : Cur} (hj : FlagOk c) (hk : Keeps b c)
    (h : optStep (p.get opValue) (applyValue c) c = .ok c1) : FlagOk c1 ∧ Keeps b c1 := by
  cases hg : p.get opValue with
  | none => rw [hg] at h; rw [optStep_none h]; exact ⟨hj, hk⟩
  | some v =>
    rw [hg] at h
    rcases applyValue_ok h with ⟨_, rfl⟩ | ⟨_, h2, _⟩
    · exact ⟨fun _ => .nil, fun _ => .inr rfl⟩
    · exact ⟨fun h => absurd h (by rw [h2]; simp), fun _ => .inl h2⟩

theorem add_inv {p : Entry} {b : Bool} {c c1 : Cur} (hj : FlagOk c) (hk : Keeps b c)
    (h : optStep (p.get opAdd) (applyAdd c) c = .ok c1) : FlagOk c1 ∧ Keeps b c1 := by
  cases hg : p.get opAdd with
  | none => rw [hg] at h; rw [optStep_none h]; exact ⟨hj, hk⟩
  | some v =>
    rw [hg] at h
    rcases applyAdd_ok h with ⟨_, rfl⟩ | ⟨_, _, rfl⟩ | ⟨_, _, h2, _⟩
    · cases hv : v.isNilIface
      · exact ⟨fun h => by simp at h, fun _ => .inl (by simp)⟩
      · rw [(isNilIface_iff v).mp hv]
        exact ⟨fun _ => .nil, fun _ => .inr rfl⟩
    · exact ⟨hj, hk⟩
    · exact ⟨fun h => absurd h (by rw [h2]; simp), fun _ => .inl h2⟩

theorem default_inv {p : Entry} {b : Bool} {c c1 : Cur} (hj : FlagOk c) (hk : Keeps b c)
    (h : optStep (p.get opDefault) (applyDefault c) c = .ok c1) : FlagOk c1 ∧ Keeps b c1 := by
  cases hg : p.get opDefault with
  | none => rw [hg] at h; rw [optStep_none h]; exact ⟨hj, hk⟩
  | some v =>
    rw [hg] at h
    rcases applyDefault_ok h with ⟨_, _, h2, _⟩ | ⟨_, rfl⟩
    · exact ⟨fun h => absurd h (by rw [h2]; simp), fun _ => .inl h2⟩
    · exact ⟨hj, hk⟩

theorem oneOf_step {p : Entry} {c c1 : Cur}
    (h : optStep (p.get opOneOf) (fun v => applyOneOf c v p.essential) c = .ok c1) :
    c1 = c ∧ ∀ s, p.get "one_of" = some s → s ≠ .nil → (c.isSet = true ∨ p.essential = true) →
      c.isSet = true ∧ c.v ∈ s.elems := by
  rw [show p.get "one_of" = p.get opOneOf from rfl]
  cases hg : p.get opOneOf with
  | none => rw [hg] at h; exact ⟨optStep_none h, by simp⟩
  | some v =>
    rw [hg] at h
    have := applyOneOf_ok h
    refine ⟨this.1, ?_⟩
    intro s hs
    cases hs
    exact this.2

theorem superset_step {p : Entry} {c c1 : Cur}
    (h : optStep (p.get opSupersetOf) (fun v => applySupersetOf c v p.essential) c = .ok c1) :
    c1 = c ∧ ∀ s, p.get "superset_of" = some s → s ≠ .nil → (c.isSet = true ∨ p.essential = true) →
      c.isSet = true ∧ ∀ x ∈ s.elems, x ∈ c.v.elems := by
  rw [show p.get "superset_of" = p.get opSupersetOf from rfl]
  cases hg : p.get opSupersetOf with
  | none => rw [hg] at h; exact ⟨optStep_none h, by simp⟩
  | some v =>
    rw [hg] at h
    have := applySupersetOf_ok h
    refine ⟨this.1, ?_⟩
    intro s hs
    cases hs
    exact this.2

theorem essential_step {p : Entry} {c c1 : Cur} (h : optStep (p.get opEssential) (applyEssential c) c = .ok c1) :
    c1 = c ∧ (Essential p → c.v.isSlice = true ∨ ¬ Unset c.v) := by
  unfold Essential
  rw [show p.get "essential" = p.get opEssential from rfl]
  cases hg : p.get opEssential with
  | none => rw [hg] at h; exact ⟨optStep_none h, by simp⟩
  | some v =>
    rw [hg] at h
    have := applyEssential_ok h
    refine ⟨this.1, ?_⟩
    intro hs
    cases hs
    exact this.2 rfl

/-- The effect of `subset_of`. -/
theorem subset_step {p : Entry} {c c1 : Cur}
    (h : optStep (p.get opSubsetOf) (fun v => applySubsetOf c v p.essential) c = .ok c1) :
    (∃ s sa, p.get "subset_of" = some s ∧ s ≠ .nil ∧ c.isSet = true ∧ c1.isSet = true ∧ slicify c.v = some sa ∧
      c1.v = .slice sa.e (interElems c.v.elems s.elems).isEmpty (interElems c.v.elems s.elems)) ∨
    (c1 = c ∧ ∀ s, p.get "subset_of" = some s → s ≠ .nil → c.isSet = false ∧ p.essential = false) := by
  rw [show p.get "subset_of" = p.get opSubsetOf from rfl]
  cases hg : p.get opSubsetOf with
  | none => rw [hg] at h; exact .inr ⟨optStep_none h, by simp⟩
  | some v =>
    rw [hg] at h
    rcases applySubsetOf_ok h with ⟨h1, h2, h3, sa, h4, h5⟩ | ⟨h1, h2⟩
    · exact .inl ⟨v, sa, rfl, h1, h2, h3, h4, h5⟩
    · refine .inr ⟨h1, ?_⟩
      intro s hs hn
      cases hs
      rcases h2 with h2 | h2
      · exact absurd h2 hn
      · exact h2

/-- After the whole entry the value consists exactly of the elements of `value`, if that operator is present. -/
theorem value_elems {p : Entry} (hv : p.verify = .ok ()) {c c' : Cur} (h : p.applyCur c = .ok c')
    {s : Val} (hs : p.get "value" = some s) : c'.v.elems = s.elems := by
  obtain ⟨ha, hnn⟩ := verify_facts hv
  obtain ⟨c1, c2, c3, c4, c5, c6, h1, h2, h3, h4, h5, h6, h7⟩ := applyCur_steps h
  have e4 := (oneOf_step h4).1
  have e6 := (superset_step h6).1
  have e7 := (essential_step h7).1
  subst e4 e6 e7
  rw [show p.get opValue = p.get "value" from rfl, hs] at h1
  rcases applyValue_ok h1 with ⟨rfl, rfl⟩ | ⟨hn, hset, hvn, he, _⟩
  · -- value: null
    have hd : p.get opDefault = none := by
      cases hd : p.get opDefault with
      | none => rfl
      | some d => exact absurd hs (ha.defaultNotNull ⟨d, hd⟩)
    have hsub : p.get opSubsetOf = none := by
      cases hd : p.get opSubsetOf with
      | none => rfl
      | some d => exact absurd hs (hnn.value ⟨d, hd⟩)
    rw [hd] at h3
    rw [hsub] at h5
    have e3 := optStep_none h3
    have e5 := optStep_none h5
    subst e3 e5
    cases hadd : p.get opAdd with
    | none => rw [hadd] at h2; rw [optStep_none h2]
    | some a =>
      rw [hadd] at h2
      have hae : a.elems = [] := List.eq_nil_iff_forall_not_mem.mpr (fun x hx => by
        simpa [Val.elems] using ha.addInValue a .nil hadd hs x hx)
      rcases applyAdd_ok h2 with ⟨_, rfl⟩ | ⟨hc, _⟩ | ⟨hc, _⟩
      · exact hae
      · exact absurd rfl hc
      · exact absurd rfl hc
  · have e2 : c2.isSet = true ∧ c2.v ≠ .nil ∧ c2.v.elems = s.elems := by
      cases hadd : p.get opAdd with
      | none => rw [hadd] at h2; rw [optStep_none h2]; exact ⟨hset, hvn, he⟩
      | some a =>
        rw [hadd] at h2
        rcases applyAdd_ok h2 with ⟨hc, _⟩ | ⟨_, _, rfl⟩ | ⟨_, _, hs2, sa, n, _, hr, _⟩
        · exact absurd hc hvn
        · exact ⟨hset, hvn, he⟩
        · refine ⟨hs2, by rw [hr]; simp, ?_⟩
          rw [hr]
          show unionElems _ _ = _
          rw [he]
          exact unionElems_sub (ha.addInValue a s hadd hs)
    have e3 : c4.isSet = true ∧ c4.v.elems = s.elems := by
      cases hd : p.get opDefault with
      | none => rw [hd] at h3; rw [optStep_none h3]; exact ⟨e2.1, e2.2.2⟩
      | some d =>
        rw [hd] at h3
        rcases applyDefault_ok h3 with ⟨hc, _⟩ | ⟨_, rfl⟩
        · rw [e2.1] at hc; cases hc
        · exact ⟨e2.1, e2.2.2⟩
    rcases subset_step h5 with ⟨t, sa, ht, _, _, _, _, hr⟩ | ⟨rfl, _⟩
    · rw [hr]
      show interElems _ _ = _
      rw [e3.2]
      exact interElems_sub (ha.valueInSubset s t hs ht)
    · exact e3.2

/-- Applying a verified entry yields a value that obeys it. -/
theorem obeys_of_apply {p : Entry} (hv : p.verify = .ok ()) {c c' : Cur} (hc : FlagOk c)
    (h : p.applyCur c = .ok c') :
    Obeys p c.isSet c'.v ∧ (Essential p → c'.v.isSlice = true ∨ ¬ Unset c'.v) := by
  have hval : ∀ s, p.get "value" = some s → SameSet c'.v.elems s.elems := fun s hs x => by
    rw [value_elems hv h hs]
  obtain ⟨ha, hnn⟩ := verify_facts hv
  obtain ⟨c1, c2, c3, c4, c5, c6, h1, h2, h3, h4, h5, h6, h7⟩ := applyCur_steps h
  have hk0 : Keeps c.isSet c := fun h => .inl h
  obtain ⟨j1, k1⟩ := value_inv hc hk0 h1
  obtain ⟨j2, k2⟩ := add_inv j1 k1 h2
  obtain ⟨j3, k3⟩ := default_inv j2 k2 h3
  obtain ⟨e4, f4⟩ := oneOf_step h4
  obtain ⟨e6, f6⟩ := superset_step h6
  obtain ⟨e7, f7⟩ := essential_step h7
  subst e4 e6 e7
  -- the value after subset_of
  have h5' := subset_step h5
  have hset5 : c'.isSet = c4.isSet := by
    rcases h5' with ⟨_, _, _, _, hc, hc1, _⟩ | ⟨rfl, _⟩
    · rw [hc, hc1]
    · rfl
  -- if the attribute is present or essential and some restriction is given, it counts as set
  have happ : Present c.isSet c'.v → c4.isSet = true := by
    intro hp
    cases hs : c4.isSet with
    | true => rfl
    | false =>
      have e : c' = c4 := by
        rcases h5' with ⟨_, _, _, _, hc, _⟩ | ⟨e, _⟩
        · rw [hs] at hc; cases hc
        · exact e
      subst e
      rcases hp with ⟨hn, hp | hp⟩
      · rcases k3 hp with h | h
        · exact absurd h (by rw [hs]; simp)
        · exact absurd h hn
      · exact absurd (j3 hs) hp
  refine ⟨⟨?_, ?_, ?_, hval⟩, f7⟩
  · intro hp s hs hn x hx
    rcases h5' with ⟨t, sa, ht, _, _, _, _, hr⟩ | ⟨rfl, hno⟩
    · rw [hs] at ht
      cases ht
      rw [hr] at hx
      exact ((interElems_mem _ _ _).mp hx).2
    · have := hno s hs hn
      rcases hp with hp | hp
      · rw [happ hp] at this; exact absurd this.1 (by simp)
      · rw [(essential_iff p).mpr hp] at this; exact absurd this.2 (by simp)
  · intro hp s hs hn
    refine (f6 s hs hn ?_).2
    rcases hp with hp | hp
    · left; rw [hset5]; exact happ hp
    · right; exact (essential_iff p).mpr hp
  · intro hp s hs hn
    have hsub : p.get opSubsetOf = none := by
      cases hg : p.get opSubsetOf with
      | none => rfl
      | some t => exact absurd ⟨t, hg⟩ (ha.oneOfAlone ⟨s, hs⟩).2.1
    rw [hsub] at h5
    have e := optStep_none h5
    subst e
    refine (f4 s hs hn ?_).2
    rcases hp with hp | hp
    · left; exact happ hp
    · right; exact (essential_iff p).mpr hp

end Oidfed
