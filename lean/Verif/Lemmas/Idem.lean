import Verif.Lemmas.Apply
/-! Applying an entry a second time. -/

namespace Oidfed
open Spec

theorem castSlc_type {s t t' r : Slc} (h : castSlc s (some t) = .ok r) (he : t'.e = t.e) :
    castSlc s (some t') = .ok r := by
  have hr := castSlc_ok h
  unfold castSlc at h ⊢
  dsimp only at h ⊢
  rw [he]
  split at h
  · rename_i hc
    rw [if_pos hc, hr]
  · cases h

theorem intersectSlc_again {sa sa' : Slc} {ob : Option Slc} {r : Slc} (h : intersectSlc (some sa) ob = .ok r)
    (he : sa'.e = sa.e) : ∃ sb, ob = some sb ∧
      intersectSlc (some sa') ob = .ok ⟨sa.e, (sa'.xs.filter (fun x => sb.xs.contains x)).isEmpty,
        sa'.xs.filter (fun x => sb.xs.contains x)⟩ := by
  cases ob with
  | none => simp [intersectSlc] at h
  | some sb =>
    refine ⟨sb, rfl, ?_⟩
    unfold intersectSlc at h ⊢
    dsimp only at h ⊢
    rw [he]
    by_cases hc : (sa.e != sb.e) = true
    · rw [if_pos hc] at h ⊢
      cases hcast : castSlc sb (some sa) with
      | error f => rw [hcast] at h; simp [bind, Except.bind] at h
      | ok b' =>
        rw [castSlc_type hcast he]
        have := castSlc_ok hcast
        subst this
        rfl
    · rw [if_neg hc] at h ⊢
      rfl

/-- A second union with the same right-hand side changes nothing. -/
theorem reflectUnion_again {v a : Val} {e : ETy} {n : Bool} {xs : List Val} (h : reflectUnion v a = .ok (.slice e n xs))
    {n' : Bool} {ys : List Val} (hs : ∀ x ∈ a.elems, x ∈ ys) (hn : a.elems ≠ [] → n' = false) :
    reflectUnion (.slice e n' ys) a = .ok (.slice e n' ys) := by
  obtain ⟨sa, m, hsa, han, hr, _, _⟩ := reflectUnion_ok h
  cases hr
  obtain ⟨sb, hsb, hxb⟩ := slicify_some han
  unfold reflectUnion at h ⊢
  rw [hsa, hsb] at h
  rw [hsb]
  show Except.map Slc.toVal (unionSlc (some ⟨sa.e, n', ys⟩) (some sb)) = _
  unfold unionSlc at h ⊢
  dsimp only at h ⊢
  by_cases hbe : sb.xs = []
  · simp [hbe, Except.map, Slc.toVal]
  · have hbe' : sb.xs.isEmpty = false := by simpa using hbe
    have hne : a.elems ≠ [] := hxb ▸ hbe
    obtain ⟨z, hz⟩ := List.exists_mem_of_ne_nil _ hne
    have hye : ys.isEmpty = false := by
      cases ys with
      | nil => simpa using hs z hz
      | cons _ _ => rfl
    rw [hbe'] at h ⊢
    simp only [Bool.false_eq_true, if_false, hye, Bool.false_or] at h ⊢
    have key : unionLoop ys sb.xs = ys := unionLoop_sub _ _ (fun x hx => hs x (hxb ▸ hx))
    by_cases hc : (sa.e != sb.e) = true
    · rw [if_pos (by rw [hc]; simp)] at h
      rw [if_pos hc]
      cases hcast : castSlc sb (some sa) with
      | error f => rw [hcast] at h; simp [bind, Except.bind, Except.map] at h
      | ok b' =>
        rw [castSlc_type (t' := ⟨sa.e, n', ys⟩) hcast rfl]
        have := castSlc_ok hcast
        subst this
        simp only [bind, Except.bind, Except.map, key]
        rw [hn hne]; rfl
    · rw [if_neg hc]
      simp only [bind, Except.bind, Except.map, key]
      rw [hn hne]; rfl

theorem applyOneOf_isSet {c : Cur} {p : Val} {ess : Bool} {c' : Cur} (h : applyOneOf c p ess = .ok c') : c' = c :=
  (applyOneOf_ok h).1

theorem default_again {p : Entry} {c c' d : Cur} (h : optStep (p.get opDefault) (applyDefault c) c = .ok c')
    (hd : d.isSet = true ∨ d = c') : optStep (p.get opDefault) (applyDefault d) d = .ok d := by
  cases hg : p.get opDefault with
  | none => rfl
  | some x =>
    rw [hg] at h
    show applyDefault d x = .ok d
    have hnot : ¬ (d.isSet = false ∧ Unset d.v) := by
      rintro ⟨h1, h2⟩
      rcases hd with hd | rfl
      · rw [hd] at h1; cases h1
      · rcases applyDefault_ok h with ⟨_, _, hs, _⟩ | ⟨hn, rfl⟩
        · rw [hs] at h1; cases h1
        · exact hn ⟨h1, h2⟩
    unfold applyDefault
    rw [if_neg]
    simp only [Bool.and_eq_true, Bool.not_eq_true', isZero_iff]
    exact hnot

theorem subset_again {p : Entry} {c c' : Cur}
    (h : optStep (p.get opSubsetOf) (fun v => applySubsetOf c v p.essential) c = .ok c') :
    optStep (p.get opSubsetOf) (fun v => applySubsetOf c' v p.essential) c' = .ok c' := by
  have h0 := subset_step h
  cases hg : p.get opSubsetOf with
  | none => rfl
  | some s =>
    rw [hg] at h
    replace h : applySubsetOf c s p.essential = .ok c' := h
    show applySubsetOf c' s p.essential = .ok c'
    rcases h0 with ⟨t, sa, ht, hn, h1, h2, h3, h4⟩ | ⟨rfl, h2⟩
    · rw [show p.get "subset_of" = p.get opSubsetOf from rfl, hg] at ht
      cases ht
      have hn' : s.isNilIface = false := (isNilIface_false s).mpr hn
      unfold applySubsetOf at h ⊢
      simp only [h1, h2, hn', Bool.not_true, Bool.false_and, Bool.false_eq_true, if_false] at h ⊢
      obtain ⟨r, hr, _⟩ := bind_ok h
      rw [h3] at hr
      have hc' : slicify c'.v = some ⟨sa.e, (interElems c.v.elems s.elems).isEmpty, interElems c.v.elems s.elems⟩ := by
        rw [h4]; rfl
      obtain ⟨sb, hsb, hi⟩ := intersectSlc_again (sa' := ⟨sa.e, (interElems c.v.elems s.elems).isEmpty,
        interElems c.v.elems s.elems⟩) hr rfl
      rw [hc', hi]
      have hxb := slicify_xs hsb
      have : (interElems c.v.elems s.elems).filter (fun x => sb.xs.contains x) = interElems c.v.elems s.elems := by
        rw [hxb]
        exact List.filter_eq_self.mpr (fun x hx => by simpa using ((interElems_mem _ _ _).mp hx).2)
      simp only [bind, Except.bind]
      rw [this]
      congr 1
      cases c'
      simp_all [Slc.toVal]
    · exact h

theorem oneOf_again {p : Entry} {c c1 : Cur}
    (h : optStep (p.get opOneOf) (fun v => applyOneOf c v p.essential) c = .ok c1) : 
    optStep (p.get opOneOf) (fun v => applyOneOf c v p.essential) c = .ok c := by
  rw [h, (oneOf_step h).1]

/-- The value operator does not care about the old value beyond its slice type. -/
theorem idem_core {p : Entry} (hv : p.verify = .ok ()) {c c' : Cur} (hc : c.v ≠ .nil) (h : p.applyCur c = .ok c') :
    p.applyCur c' = .ok c' := by
  obtain ⟨ha, hnn⟩ := verify_facts hv
  obtain ⟨c1, c2, c3, c4, c5, c6, h1, h2, h3, h4, h5, h6, h7⟩ := applyCur_steps h
  have e4 := (oneOf_step h4).1
  have e6 := (superset_step h6).1
  have e7 := (essential_step h7).1
  subst e4 e6 e7
  -- now c4 is the value before and c' after subset_of
  cases hval : p.get opValue with
  | some s =>
    -- with a `value`, everything after it is recomputed from the same state
    have hcast : optStep (p.get opValue) (applyValue c') c' = .ok c1 := by
      rw [hval] at h1 ⊢
      replace h1 : applyValue c s = .ok c1 := h1
      show applyValue c' s = .ok c1
      rcases applyValue_ok h1 with ⟨rfl, rfl⟩ | ⟨hn, hset, hvn, he, hns, hsl⟩
      · rfl
      · have hn' : s.isNilIface = false := (isNilIface_false s).mpr hn
        unfold applyValue at h1 ⊢
        simp only [hn', Bool.false_eq_true, if_false] at h1 ⊢
        cases s with
        | slice e n xs =>
          obtain ⟨t, ht, hv1⟩ := hsl rfl
          -- the slice type is kept
          have hty : ∃ t', slicify c'.v = some t' ∧ t'.e = t.e := by
            have hty2 : ∃ n2 x2, c2.v = .slice t.e n2 x2 ∧ c2.isSet = true := by
              cases hadd : p.get opAdd with
              | none => rw [hadd] at h2; rw [optStep_none h2]; exact ⟨_, _, hv1, hset⟩
              | some a =>
                rw [hadd] at h2
                rcases applyAdd_ok h2 with ⟨hcn, _⟩ | ⟨_, _, rfl⟩ | ⟨_, _, hs2, sa, n2, hsa, hr, _⟩
                · exact absurd hcn hvn
                · exact ⟨_, _, hv1, hset⟩
                · rw [hv1] at hsa; cases hsa
                  exact ⟨_, _, hr, hs2⟩
            obtain ⟨n2, x2, hv2, hs2⟩ := hty2
            have e3 : c4 = c2 := by
              cases hd : p.get opDefault with
              | none => rw [hd] at h3; exact optStep_none h3
              | some d =>
                rw [hd] at h3
                rcases applyDefault_ok h3 with ⟨hcc, _⟩ | ⟨_, e⟩
                · rw [hs2] at hcc; cases hcc
                · exact e
            subst e3
            rcases subset_step h5 with ⟨_, sa, _, _, _, _, hsa, hr⟩ | ⟨rfl, _⟩
            · rw [hv2] at hsa; cases hsa
              rw [hr]; exact ⟨_, rfl, rfl⟩
            · rw [hv2]; exact ⟨_, rfl, rfl⟩
          obtain ⟨t', ht', hte⟩ := hty
          obtain ⟨r, hr, h1⟩ := bind_ok h1
          rw [ht] at hr
          rw [ht']
          unfold reflectSliceCast at hr ⊢
          dsimp only at hr ⊢
          cases hcst : castSlc ⟨e, n, xs⟩ (some t) with
          | error f => rw [hcst] at hr; simp [Except.map] at hr
          | ok s' =>
            rw [hcst] at hr
            rw [castSlc_type hcst hte, hr]
            exact h1
        | nil => exact absurd rfl hn
        | str _ | bool _ | num _ | int _ | obj _ | ptr _ => exact h1
    exact applyCur_of_steps hcast h2 h3 h4 h5 h6 h7
  | none =>
    rw [hval] at h1
    have e1 := optStep_none h1
    subst e1
    have hsub := subset_again h5
    have hset5 : c'.isSet = c4.isSet := by
      rcases subset_step h5 with ⟨_, _, _, _, hc, hc1, _⟩ | ⟨rfl, _⟩
      · rw [hc, hc1]
      · rfl
    -- default is not applied again
    have hdef : optStep (p.get opDefault) (applyDefault c') c' = .ok c' := by
      refine default_again h3 ?_
      rcases subset_step h5 with ⟨_, _, _, _, _, hc1, _⟩ | ⟨rfl, _⟩
      · exact .inl hc1
      · exact .inr rfl
    -- add adds nothing
    have hadd' : ∃ d, optStep (p.get opAdd) (applyAdd c') c' = .ok d ∧
        optStep (p.get opDefault) (applyDefault d) d = .ok c' := by
      cases hadd : p.get opAdd with
      | none => exact ⟨c', rfl, hdef⟩
      | some a =>
        rw [hadd] at h2
        replace h2 : applyAdd c1 a = .ok c2 := h2
        show ∃ d, applyAdd c' a = .ok d ∧ _
        by_cases hna : a = .nil
        · subst hna
          unfold applyAdd
          cases hcn : c'.v.isNilIface
          · exact ⟨c', rfl, hdef⟩
          · have hcn := (isNilIface_iff _).mp hcn
            refine ⟨⟨.nil, false⟩, rfl, ?_⟩
            rcases applyAdd_ok h2 with ⟨hcn, _⟩ | ⟨_, _, rfl⟩ | ⟨_, hcn, _⟩
            · exact absurd hcn hc
            · -- c' nil although the original was not: only default null could do that
              have e5 : c' = c4 := by
                rcases subset_step h5 with ⟨_, _, _, _, _, _, _, hr⟩ | ⟨e, _⟩
                · rw [hr] at hcn; cases hcn
                · exact e
              subst e5
              cases hd : p.get opDefault with
              | none => rw [hd] at h3; rw [optStep_none h3] at hcn; exact absurd hcn hc
              | some d =>
                rw [hd] at h3
                rcases applyDefault_ok h3 with ⟨_, _, hs, _, hd1, hd2⟩ | ⟨_, e⟩
                · cases hsl : d.isSlice with
                  | true => obtain ⟨t, _, ht⟩ := hd2 hsl; rw [ht] at hcn; cases hcn
                  | false =>
                    have hdn := hd1 hsl
                    rw [hcn] at hdn
                    subst hdn
                    show applyDefault ⟨.nil, false⟩ .nil = .ok c'
                    cases c'
                    simp_all [applyDefault, reflectSliceCast, Val.isNilIface, bind, Except.bind]
                · rw [e] at hcn; exact absurd hcn hc
            · exact absurd rfl hcn
        · rcases applyAdd_ok h2 with ⟨hcn, _⟩ | ⟨_, hcn, _⟩ | ⟨_, _, hs2, sa, n, hsa, hr, hn1, hn2⟩
          · exact absurd hcn hc
          · exact absurd hcn hna
          · have hu : reflectUnion c1.v a = .ok c2.v := by
              unfold applyAdd at h2
              rw [if_neg (by rw [isNilIface_iff]; exact hc), if_neg (by rw [isNilIface_iff]; exact hna)] at h2
              obtain ⟨r, hr', h⟩ := bind_ok h2
              cases h
              exact hr'
            rw [hr] at hu
            have e3 : c4 = c2 := by
              cases hd : p.get opDefault with
              | none => rw [hd] at h3; exact optStep_none h3
              | some d =>
                rw [hd] at h3
                rcases applyDefault_ok h3 with ⟨hcc, _⟩ | ⟨_, e⟩
                · rw [hs2] at hcc; cases hcc
                · exact e
            subst e3
            -- shape of c'
            have hshape : ∃ n' ys, c'.v = .slice sa.e n' ys ∧ (∀ x ∈ a.elems, x ∈ ys) ∧ (a.elems ≠ [] → n' = false) := by
              rcases subset_step h5 with ⟨s, sa', hs, _, _, _, hsa', hr'⟩ | ⟨rfl, _⟩
              · rw [hr] at hsa'; cases hsa'
                refine ⟨_, _, hr', ?_, ?_⟩
                · intro x hx
                  rw [interElems_mem, hr]
                  exact ⟨(unionElems_mem _ _ _).mpr (.inr hx), ha.addInSubset a s hadd hs x hx⟩
                · intro hne
                  obtain ⟨z, hz⟩ := List.exists_mem_of_ne_nil _ hne
                  have : z ∈ interElems c4.v.elems s.elems := by
                    rw [interElems_mem, hr]
                    exact ⟨(unionElems_mem _ _ _).mpr (.inr hz), ha.addInSubset a s hadd hs z hz⟩
                  cases hl : interElems c4.v.elems s.elems with
                  | nil => rw [hl] at this; cases this
                  | cons _ _ => rfl
              · exact ⟨n, _, hr, fun x hx => (unionElems_mem _ _ _).mpr (.inr hx), hn2⟩
            obtain ⟨n', ys, hv', hsub', hn'⟩ := hshape
            have := reflectUnion_again hu hsub' hn'
            refine ⟨c', ?_, hdef⟩
            unfold applyAdd
            rw [if_neg (by rw [isNilIface_iff, hv']; simp), if_neg (by rw [isNilIface_iff]; exact hna), hv', this]
            have : c'.isSet = true := by rw [hset5, hs2]
            cases c'
            simp_all [bind, Except.bind]
    have h1' : optStep (p.get opValue) (applyValue c') c' = .ok c' := by rw [hval]; rfl
    -- one_of: with subset_of absent the value is the same
    have h4' : optStep (p.get opOneOf) (fun v => applyOneOf c' v p.essential) c' = .ok c' := by
      cases hoo : p.get opOneOf with
      | none => rfl
      | some o =>
        have hsn : p.get opSubsetOf = none := by
          cases hg : p.get opSubsetOf with
          | none => rfl
          | some t => exact absurd ⟨t, hg⟩ (ha.oneOfAlone ⟨o, hoo⟩).2.1
        rw [hsn] at h5
        have := optStep_none h5
        subst this
        rw [hoo] at h4
        exact h4
    obtain ⟨d, hadd', hdef'⟩ := hadd'
    exact applyCur_of_steps h1' hadd' hdef' h4' hsub h6 h7

end Oidfed
