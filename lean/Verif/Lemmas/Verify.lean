import Verif.Lemmas.Policy
/-! `MetadataPolicyEntry.Verify` against the specification. -/

namespace Oidfed
open Spec

theorem get_none_iff {α : Type} (m : AMap α) (k : String) : m.get k = none ↔ k ∉ m.keys := by
  induction m with
  | nil => simp [AMap.get, AMap.keys]
  | cons kv m ih =>
    obtain ⟨k', v⟩ := kv
    rw [get_cons]
    by_cases h : k' = k
    · simp [h, AMap.keys]
    · rw [if_neg h, ih]
      simp [AMap.keys, Ne.symm h]

theorem mem_keys_iff (p : Entry) (k : String) : k ∈ p.keys ↔ Has p k := by
  constructor
  · intro h
    cases hg : p.get k with
    | none => exact absurd h ((get_none_iff p k).mp hg)
    | some v => exact ⟨v, hg⟩
  · rintro ⟨v, hv⟩
    apply Classical.byContradiction
    intro hn
    rw [(get_none_iff p k).mpr hn] at hv
    cases hv

theorem operators_known {n : String} : (operators n).isSome = true ↔ Known n := by
  constructor
  · intro h
    apply Classical.byContradiction
    intro hn
    simp only [Known, not_or] at hn
    obtain ⟨h1, h2, h3, h4, h5, h6, h7⟩ := hn
    rw [show operators n = none by
      simp [operators, opSubsetOf, opOneOf, opSupersetOf, opAdd, opValue, opDefault, opEssential, *]] at h
    cases h
  · rintro (h | h | h | h | h | h | h) <;> subst h <;> decide

/-- The combination table: `one_of` excludes `add`, `subset_of` and `superset_of`. -/
theorem combine_iff {p : Entry} (hk : KnownOps p) :
    p.keys.all (combineOk p.keys) = true ↔
      (Has p "one_of" → ¬ Has p "add" ∧ ¬ Has p "subset_of" ∧ ¬ Has p "superset_of") := by
  rw [List.all_eq_true]
  constructor
  · intro h ho
    have ho' := (mem_keys_iff p _).mpr ho
    have h := h _ ho'
    have e : combineOk p.keys "one_of" =
        p.keys.all (fun n => ([opValue, opDefault, opEssential] ++ [opOneOf]).contains n) := rfl
    rw [e, List.all_eq_true] at h
    refine ⟨?_, ?_, ?_⟩
    all_goals
      intro hc
      have := h _ ((mem_keys_iff p _).mpr hc)
      revert this
      decide
  · intro h n hn
    have key : ∀ (l : List OpName), (∀ m, Has p m → Known m → l.contains m = true) →
        p.keys.all (fun m => l.contains m) = true := by
      intro l hl
      rw [List.all_eq_true]
      intro m hm
      have := (mem_keys_iff p m).mp hm
      exact hl m this (hk m this)
    have hn := (mem_keys_iff p n).mp hn
    rcases hk n hn with hh | hh | hh | hh | hh | hh | hh <;> subst hh
    · exact key ([opAdd, opDefault, opOneOf, opSubsetOf, opSupersetOf, opEssential] ++ [opValue])
        (by intro m _ hm; rcases hm with h | h | h | h | h | h | h <;> subst h <;> decide)
    · refine key ([opValue, opDefault, opSubsetOf, opSupersetOf, opEssential] ++ [opAdd]) ?_
      intro m hm hkm
      rcases hkm with h' | h' | h' | h' | h' | h' | h' <;> subst h' <;> first | decide | exact absurd hn (h hm).1
    · exact key ([opValue, opAdd, opOneOf, opSubsetOf, opSupersetOf, opEssential] ++ [opDefault])
        (by intro m _ hm; rcases hm with h | h | h | h | h | h | h <;> subst h <;> decide)
    · refine key ([opValue, opDefault, opEssential] ++ [opOneOf]) ?_
      intro m hm hkm
      rcases hkm with h' | h' | h' | h' | h' | h' | h' <;> subst h' <;>
        first | decide | exact absurd hm (h hn).1 | exact absurd hm (h hn).2.1 | exact absurd hm (h hn).2.2
    · refine key ([opValue, opAdd, opDefault, opSupersetOf, opEssential] ++ [opSubsetOf]) ?_
      intro m hm hkm
      rcases hkm with h' | h' | h' | h' | h' | h' | h' <;> subst h' <;> first | decide | exact absurd hn (h hm).2.1
    · refine key ([opValue, opAdd, opDefault, opSubsetOf, opEssential] ++ [opSupersetOf]) ?_
      intro m hm hkm
      rcases hkm with h' | h' | h' | h' | h' | h' | h' <;> subst h' <;> first | decide | exact absurd hn (h hm).2.2
    · rfl

theorem vSubset_ok {i o : OpName} {p : Entry} :
    vSubset i o p = .ok () ↔ ∀ s t, p.get i = some s → p.get o = some t →
      s ≠ .nil ∧ ∀ x ∈ s.elems, x ∈ t.elems := by
  unfold vSubset
  cases hi : p.get i with
  | none => simp
  | some s =>
    cases ho : p.get o with
    | none => simp
    | some t =>
      dsimp only
      rw [show (∀ s_1 t_1, some s = some s_1 → some t = some t_1 → s_1 ≠ Val.nil ∧ ∀ x ∈ s_1.elems, x ∈ t_1.elems)
        ↔ (s ≠ Val.nil ∧ ∀ x ∈ s.elems, x ∈ t.elems) from by
          constructor
          · intro h; exact h s t rfl rfl
          · intro h s' t' h1 h2; cases h1; cases h2; exact h]
      rw [← reflectIsSubsetOf_true]
      cases reflectIsSubsetOf s t with
      | error f => simp [bind, Except.bind]
      | ok b => cases b <;> simp [bind, Except.bind]

theorem vOneOfNonempty_ok {p : Entry} :
    vOneOfNonempty p = .ok () ↔ ∀ s, p.get "one_of" = some s → s.elems ≠ [] := by
  unfold vOneOfNonempty
  rw [show p.get opOneOf = p.get "one_of" from rfl]
  cases h : p.get "one_of" with
  | none => simp
  | some s =>
    dsimp only
    cases hs : slicify s with
    | none => simp [(slicify_none s).mp hs, Val.elems]
    | some t =>
      have := slicify_xs hs
      simp [this]

theorem vDefault_ok {p : Entry} :
    vDefaultAndValue p = .ok () ↔ (Has p "default" → p.get "value" ≠ some .nil) := by
  unfold vDefaultAndValue Has
  rw [show p.get opValue = p.get "value" from rfl, show p.get opDefault = p.get "default" from rfl]
  cases h : p.get "value" with
  | none => simp
  | some s =>
    cases hd : p.get "default" with
    | none => simp
    | some t =>
      dsimp only
      cases hn : s.isNilIface
      · simp [(isNilIface_false s).mp hn]
      · simp [(isNilIface_iff s).mp hn]

theorem vOneOfExclusive_ok {p : Entry} :
    vOneOfExclusive p = .ok () ↔ (Has p "one_of" → ¬ Has p "subset_of" ∧ ¬ Has p "superset_of") := by
  unfold vOneOfExclusive Has
  rw [show p.get opOneOf = p.get "one_of" from rfl, show p.get opSubsetOf = p.get "subset_of" from rfl,
    show p.get opSupersetOf = p.get "superset_of" from rfl]
  cases p.get "one_of" <;> cases p.get "subset_of" <;> cases p.get "superset_of" <;> simp

theorem bind_ok_iff {x : Res Unit} {f : Unit → Res Unit} : (x >>= f) = .ok () ↔ x = .ok () ∧ f () = .ok () := by
  cases x <;> simp [bind, Except.bind]

theorem vAddInOneOf_none {p : Entry} (h : Has p "one_of" → ¬ Has p "add") : vAddInOneOf p = .ok () := by
  unfold vAddInOneOf
  rw [show p.get opOneOf = p.get "one_of" from rfl, show p.get opAdd = p.get "add" from rfl]
  cases h1 : p.get "one_of" with
  | none => rfl
  | some o =>
    cases h2 : p.get "add" with
    | none => rfl
    | some a => exact absurd ⟨a, h2⟩ (h ⟨o, h1⟩)

/-- `Verify` on known operators, exactly. -/
theorem verify_iff_allowed {p : Entry} (hk : KnownOps p) :
    p.verify = .ok () ↔ Allowed p ∧ NoNull p := by
  unfold Entry.verify
  constructor
  · intro h
    split at h
    · rename_i hc
      have hc := (combine_iff hk).mp hc
      unfold runVerifiers at h
      simp only [bind_ok_iff, vSubset_ok, vOneOfNonempty_ok, vDefault_ok, vOneOfExclusive_ok] at h
      obtain ⟨h1, h2, h3, h4, h5, h6, h7, h8⟩ := h
      refine ⟨⟨hc, h6, fun s t a b => (h2 s t a b).2, fun s t a b => (h3 s t a b).2, fun s t a b => (h5 s t a b).2,
        fun s t a b => (h7 s t a b).2, h8⟩, ⟨?_, ?_, ?_, ?_⟩⟩
      · rintro ⟨t, ht⟩ hn; exact (h2 _ t hn ht).1 rfl
      · rintro ⟨t, ht⟩ hn; exact (h3 _ t hn ht).1 rfl
      · rintro ⟨t, ht⟩ hn; exact (h5 _ t hn ht).1 rfl
      · rintro ⟨t, ht⟩ hn; exact (h7 _ t hn ht).1 rfl
    · cases h
  · rintro ⟨ha, hn⟩
    rw [if_pos ((combine_iff hk).mpr ha.oneOfAlone)]
    unfold runVerifiers
    simp only [bind_ok_iff, vSubset_ok, vOneOfNonempty_ok, vDefault_ok, vOneOfExclusive_ok]
    refine ⟨fun h => (ha.oneOfAlone h).2, ?_, ?_, vAddInOneOf_none (fun h => (ha.oneOfAlone h).1), ?_,
      ha.oneOfNonempty, ?_, ha.defaultNotNull⟩
    · intro s t h1 h2
      exact ⟨fun h => hn.superset ⟨t, h2⟩ (h ▸ h1), ha.supersetInSubset s t h1 h2⟩
    · intro s t h1 h2
      exact ⟨fun h => hn.add ⟨t, h2⟩ (h ▸ h1), ha.addInSubset s t h1 h2⟩
    · intro s t h1 h2
      exact ⟨fun h => hn.addValue ⟨t, h2⟩ (h ▸ h1), ha.addInValue s t h1 h2⟩
    · intro s t h1 h2
      exact ⟨fun h => hn.value ⟨t, h2⟩ (h ▸ h1), ha.valueInSubset s t h1 h2⟩

/-- What a successful `Verify` guarantees, whatever operators occur. -/
theorem verify_facts {p : Entry} (h : p.verify = .ok ()) : Allowed p ∧ NoNull p := by
  unfold Entry.verify at h
  split at h
  · rename_i hc
    rw [List.all_eq_true] at hc
    unfold runVerifiers at h
    simp only [bind_ok_iff, vSubset_ok, vOneOfNonempty_ok, vDefault_ok, vOneOfExclusive_ok] at h
    obtain ⟨h1, h2, h3, h4, h5, h6, h7, h8⟩ := h
    refine ⟨⟨?_, h6, fun s t a b => (h2 s t a b).2, fun s t a b => (h3 s t a b).2, fun s t a b => (h5 s t a b).2,
      fun s t a b => (h7 s t a b).2, h8⟩, ⟨?_, ?_, ?_, ?_⟩⟩
    · intro ho
      refine ⟨?_, h1 ho⟩
      intro ha
      have e : combineOk p.keys "one_of" =
        p.keys.all (fun n => ([opValue, opDefault, opEssential] ++ [opOneOf]).contains n) := rfl
      have hc := hc _ ((mem_keys_iff p _).mpr ho)
      rw [e, List.all_eq_true] at hc
      have := hc _ ((mem_keys_iff p _).mpr ha)
      revert this
      decide
    · rintro ⟨t, ht⟩ hn; exact (h2 _ t hn ht).1 rfl
    · rintro ⟨t, ht⟩ hn; exact (h3 _ t hn ht).1 rfl
    · rintro ⟨t, ht⟩ hn; exact (h5 _ t hn ht).1 rfl
    · rintro ⟨t, ht⟩ hn; exact (h7 _ t hn ht).1 rfl
  · cases h

end Oidfed
