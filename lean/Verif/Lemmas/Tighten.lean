import Verif.Lemmas.Merge
/-! A merged entry is at least as strict as the entries it was merged from. -/

namespace Oidfed
open Spec

/-- Pigeonhole: a duplicate-free list contained in a list that is not longer contains it. -/
theorem subset_of_nodup_length {α : Type} : ∀ {a b : List α}, a.Nodup → (∀ x ∈ a, x ∈ b) → b.length ≤ a.length →
    ∀ x ∈ b, x ∈ a := by
  intro a
  induction a with
  | nil =>
    intro b _ _ hl x hx
    cases b with
    | nil => exact hx
    | cons _ _ => simp at hl
  | cons y a ih =>
    intro b hn hs hl x hx
    rw [List.nodup_cons] at hn
    obtain ⟨b1, b2, rfl⟩ := List.append_of_mem (hs y (by simp))
    have hs' : ∀ z ∈ a, z ∈ b1 ++ b2 := by
      intro z hz
      have := hs z (by simp [hz])
      simp only [List.mem_append, List.mem_cons] at this ⊢
      rcases this with h | h | h
      · exact .inl h
      · subst h; exact absurd hz hn.1
      · exact .inr h
    have hl' : (b1 ++ b2).length ≤ a.length := by simp at hl ⊢; omega
    have hx' : x = y ∨ x ∈ b1 ++ b2 := by
      simp only [List.mem_append, List.mem_cons] at hx ⊢
      rcases hx with h | h | h
      · exact .inr (.inl h)
      · exact .inl h
      · exact .inr (.inr h)
    rcases hx' with h | h
    · simp [h]
    · exact List.mem_cons_of_mem _ (ih hn.2 hs' hl' x h)

theorem sliceEqual_sameSet {a b : Val} (hn : a.elems.Nodup) (h : sliceEqual a b = true) : SameSet a.elems b.elems := by
  obtain ⟨_, h1, h2⟩ := (sliceEqual_iff a b).mp h
  exact fun x => ⟨h2 x, subset_of_nodup_length hn h2 (by omega) x⟩

theorem mergeIntersect_ok {x y z : Val} (h : mergeIntersect x y = .ok z) :
    (x ≠ .nil → z ≠ .nil ∧ ∀ v ∈ z.elems, v ∈ x.elems) ∧ (y ≠ .nil → z ≠ .nil ∧ ∀ v ∈ z.elems, v ∈ y.elems) := by
  unfold mergeIntersect at h
  split at h
  · rename_i hx
    cases h
    exact ⟨fun hn => absurd ((isNilIface_iff x).mp hx) hn, fun hn => ⟨hn, fun v hv => hv⟩⟩
  · split at h
    · rename_i hx hy
      cases h
      exact ⟨fun hn => ⟨hn, fun v hv => hv⟩, fun hn => absurd ((isNilIface_iff y).mp hy) hn⟩
    · obtain ⟨sa, _, _, hr⟩ := reflectIntersect_ok h
      rw [hr]
      exact ⟨fun _ => ⟨by simp, fun v hv => ((interElems_mem _ _ _).mp hv).1⟩,
        fun _ => ⟨by simp, fun v hv => ((interElems_mem _ _ _).mp hv).2⟩⟩

theorem mergeUnion_ok {x y z : Val} (h : mergeUnion x y = .ok z) :
    (x ≠ .nil → z ≠ .nil ∧ ∀ v ∈ x.elems, v ∈ z.elems) ∧ (y ≠ .nil → z ≠ .nil ∧ ∀ v ∈ y.elems, v ∈ z.elems) := by
  unfold mergeUnion at h
  split at h
  · rename_i hx
    cases h
    exact ⟨fun hn => absurd ((isNilIface_iff x).mp hx) hn, fun hn => ⟨hn, fun v hv => hv⟩⟩
  · split at h
    · rename_i hx hy
      cases h
      exact ⟨fun hn => ⟨hn, fun v hv => hv⟩, fun hn => absurd ((isNilIface_iff y).mp hy) hn⟩
    · obtain ⟨sa, n, _, _, hr, _⟩ := reflectUnion_ok h
      rw [hr]
      exact ⟨fun _ => ⟨by simp, fun v hv => (unionElems_mem _ _ _).mpr (.inl hv)⟩,
        fun _ => ⟨by simp, fun v hv => (unionElems_mem _ _ _).mpr (.inr hv)⟩⟩

theorem mergeValue_ok {x y z : Val} (h : mergeValue x y = .ok z) : z = x ∧ sliceEqual x y = true := by
  unfold mergeValue at h
  split at h
  · rename_i hs; exact ⟨(Except.ok.inj h).symm, hs⟩
  · cases h

theorem mergeEssential_ok {x y z : Val} (h : mergeEssential x y = .ok z) (hb : x = .bool true ∨ y = .bool true) :
    z = .bool true := by
  unfold mergeEssential at h
  rcases hb with rfl | rfl
  · simp only [Val.asBool] at h
    cases y <;> simp_all
  · simp only [Val.asBool] at h
    cases x <;> simp_all

theorem mergeDefault_ok {x y z : Val} (h : mergeDefault x y = .ok z) :
    (x = .nil ∧ z = y) ∨ (x ≠ .nil ∧ y = .nil ∧ z = x) ∨ (x ≠ .nil ∧ y ≠ .nil ∧ z = x ∧ sliceEqual x y = true) := by
  unfold mergeDefault at h
  split at h
  · rename_i hx; exact .inl ⟨(isNilIface_iff x).mp hx, (Except.ok.inj h).symm⟩
  · rename_i hx
    have hx : x ≠ .nil := fun e => hx ((isNilIface_iff x).mpr e)
    split at h
    · rename_i hy; exact .inr (.inl ⟨hx, (isNilIface_iff y).mp hy, (Except.ok.inj h).symm⟩)
    · rename_i hy
      have hy : y ≠ .nil := fun e => hy ((isNilIface_iff y).mpr e)
      split at h
      · rename_i hs; exact .inr (.inr ⟨hx, hy, (Except.ok.inj h).symm, hs⟩)
      · cases h

theorem Spec.SameVal.refl (v : Val) : SameVal v v := ⟨Iff.rfl, fun _ => Iff.rfl⟩

theorem Spec.SameVal.symm {v w : Val} (h : SameVal v w) : SameVal w v := ⟨h.1.symm, fun x => (h.2 x).symm⟩

theorem Spec.SameVal.trans {u v w : Val} (h : SameVal u v) (h' : SameVal v w) : SameVal u w :=
  ⟨h.1.trans h'.1, fun x => (h.2 x).trans (h'.2 x)⟩

theorem sliceEqual_sameVal {a b : Val} (hn : a.elems.Nodup) (h : sliceEqual a b = true) : SameVal a b :=
  ⟨((sliceEqual_iff a b).mp h).1, sliceEqual_sameSet hn h⟩

/-- `e` is at least as strict as `p`. -/
structure Tightens (e p : Entry) : Prop where
  subset : ∀ s, p.get "subset_of" = some s → s ≠ .nil → ∃ t, e.get "subset_of" = some t ∧ t ≠ .nil ∧ ∀ x ∈ t.elems, x ∈ s.elems
  superset : ∀ s, p.get "superset_of" = some s → s ≠ .nil →
    ∃ t, e.get "superset_of" = some t ∧ t ≠ .nil ∧ ∀ x ∈ s.elems, x ∈ t.elems
  oneOf : ∀ s, p.get "one_of" = some s → s ≠ .nil → ∃ t, e.get "one_of" = some t ∧ t ≠ .nil ∧ ∀ x ∈ t.elems, x ∈ s.elems
  value : ∀ s, p.get "value" = some s → ∃ t, e.get "value" = some t ∧ SameVal t s
  default : ∀ s, p.get "default" = some s → s ≠ .nil → ∃ t, e.get "default" = some t ∧ SameVal t s
  essential : Essential p → Essential e

theorem Tightens.refl (p : Entry) : Tightens p p :=
  ⟨fun s h hn => ⟨s, h, hn, fun _ h => h⟩, fun s h hn => ⟨s, h, hn, fun _ h => h⟩, fun s h hn => ⟨s, h, hn, fun _ h => h⟩,
    fun s h => ⟨s, h, SameVal.refl s⟩, fun s h _ => ⟨s, h, SameVal.refl s⟩, id⟩

theorem Tightens.trans {a b c : Entry} (h1 : Tightens a b) (h2 : Tightens b c) : Tightens a c := by
  refine ⟨?_, ?_, ?_, ?_, ?_, fun h => h1.essential (h2.essential h)⟩
  · intro s hs hn
    obtain ⟨t, ht, hn', hi⟩ := h2.subset s hs hn
    obtain ⟨u, hu, hn'', hi'⟩ := h1.subset t ht hn'
    exact ⟨u, hu, hn'', fun x hx => hi x (hi' x hx)⟩
  · intro s hs hn
    obtain ⟨t, ht, hn', hi⟩ := h2.superset s hs hn
    obtain ⟨u, hu, hn'', hi'⟩ := h1.superset t ht hn'
    exact ⟨u, hu, hn'', fun x hx => hi' x (hi x hx)⟩
  · intro s hs hn
    obtain ⟨t, ht, hn', hi⟩ := h2.oneOf s hs hn
    obtain ⟨u, hu, hn'', hi'⟩ := h1.oneOf t ht hn'
    exact ⟨u, hu, hn'', fun x hx => hi x (hi' x hx)⟩
  · intro s hs
    obtain ⟨t, ht, hi⟩ := h2.value s hs
    obtain ⟨u, hu, hi'⟩ := h1.value t ht
    exact ⟨u, hu, hi'.trans hi⟩
  · intro s hs hn
    obtain ⟨t, ht, hi⟩ := h2.default s hs hn
    obtain ⟨u, hu, hi'⟩ := h1.default t ht (fun h => hn (hi.1.mp h))
    exact ⟨u, hu, hi'.trans hi⟩

/-- Obeying the stricter entry means obeying the other. -/
theorem Tightens.obeys {e p : Entry} (ht : Tightens e p) {b : Bool} {v : Val} (h : Obeys e b v) : Obeys p b v := by
  have hpe : Present b v ∨ Essential p → Present b v ∨ Essential e := fun h => h.imp_right ht.essential
  refine ⟨?_, ?_, ?_, ?_⟩
  · intro hp s hs hn x hx
    obtain ⟨t, h1, h2, h3⟩ := ht.subset s hs hn
    exact h3 x (h.subset (hpe hp) t h1 h2 x hx)
  · intro hp s hs hn x hx
    obtain ⟨t, h1, h2, h3⟩ := ht.superset s hs hn
    exact h.superset (hpe hp) t h1 h2 x (h3 x hx)
  · intro hp s hs hn
    obtain ⟨t, h1, h2, h3⟩ := ht.oneOf s hs hn
    exact h3 v (h.oneOf (hpe hp) t h1 h2)
  · intro s hs
    obtain ⟨t, h1, h2⟩ := ht.value s hs
    exact fun x => (h.value t h1 x).trans (h2.2 x)

theorem noShared_of_known {a b : Entry} (h : KnownOps a) : NoSharedUnknown a b :=
  fun op ha _ => operators_known.mpr (h op ha)

/-- Lookup of a merged operator that occurs on both sides. -/
theorem merged_both {a b m : Entry} (h : mergeEntries a b = .ok m) (hk : KnownOps a) (hw : a.WF) {op : String} {o : Op}
    (ho : operators op = some o) {x y : Val} (hx : a.get op = some x) (hy : b.get op = some y) :
    ∃ z, o.merge x y = .ok z ∧ m.get op = some z := by
  have hg := mergeEntries_get h (noShared_of_known hk) hw op
  obtain ⟨o', z, ho', hz⟩ := (mergeEntries_ok_iff (noShared_of_known hk) hw).mp ⟨m, h⟩ op x y hx hy
  rw [ho] at ho'
  cases ho'
  refine ⟨z, hz, ?_⟩
  rw [hg, hx, hy]
  simp [mergedVal, ho, hz]

theorem merged_left {a b m : Entry} (h : mergeEntries a b = .ok m) (hk : KnownOps a) (hw : a.WF) {op : String}
    {x : Val} (hx : a.get op = some x) (hy : b.get op = none) : m.get op = some x := by
  rw [mergeEntries_get h (noShared_of_known hk) hw op, hx, hy]
  rfl

theorem merged_right {a b m : Entry} (h : mergeEntries a b = .ok m) (hk : KnownOps a) (hw : a.WF) {op : String}
    (hx : a.get op = none) : m.get op = b.get op := by
  rw [mergeEntries_get h (noShared_of_known hk) hw op, hx]
  rfl

theorem merge_tightens {a b m : Entry} (ha : GoodEntry a) (h : mergeEntries a b = .ok m) :
    Tightens m a ∧ Tightens m b := by
  have L := @merged_left a b m h ha.known ha.wf
  have R := @merged_right a b m h ha.known ha.wf
  have B := @merged_both a b m h ha.known ha.wf
  constructor
  · refine ⟨?_, ?_, ?_, ?_, ?_, ?_⟩
    · intro s hs hn
      cases hb : b.get "subset_of" with
      | none => exact ⟨s, L hs hb, hn, fun _ h => h⟩
      | some y =>
        obtain ⟨z, hz, hm⟩ := B (o := .subsetOf) rfl hs hb
        obtain ⟨h1, h2⟩ := (mergeIntersect_ok hz).1 hn
        exact ⟨z, hm, h1, h2⟩
    · intro s hs hn
      cases hb : b.get "superset_of" with
      | none => exact ⟨s, L hs hb, hn, fun _ h => h⟩
      | some y =>
        obtain ⟨z, hz, hm⟩ := B (o := .supersetOf) rfl hs hb
        obtain ⟨h1, h2⟩ := (mergeUnion_ok hz).1 hn
        exact ⟨z, hm, h1, h2⟩
    · intro s hs hn
      cases hb : b.get "one_of" with
      | none => exact ⟨s, L hs hb, hn, fun _ h => h⟩
      | some y =>
        obtain ⟨z, hz, hm⟩ := B (o := .oneOf) rfl hs hb
        obtain ⟨h1, h2⟩ := (mergeIntersect_ok hz).1 hn
        exact ⟨z, hm, h1, h2⟩
    · intro s hs
      cases hb : b.get "value" with
      | none => exact ⟨s, L hs hb, SameVal.refl s⟩
      | some y =>
        obtain ⟨z, hz, hm⟩ := B (o := .value) rfl hs hb
        obtain ⟨h1, _⟩ := mergeValue_ok hz
        exact ⟨z, hm, by rw [h1]; exact SameVal.refl s⟩
    · intro s hs hn
      cases hb : b.get "default" with
      | none => exact ⟨s, L hs hb, SameVal.refl s⟩
      | some y =>
        obtain ⟨z, hz, hm⟩ := B (o := .default) rfl hs hb
        rcases mergeDefault_ok hz with ⟨h1, _⟩ | ⟨_, _, rfl⟩ | ⟨_, _, rfl, _⟩
        · exact absurd h1 hn
        · exact ⟨_, hm, SameVal.refl _⟩
        · exact ⟨_, hm, SameVal.refl _⟩
    · intro hs
      unfold Essential at hs ⊢
      cases hb : b.get "essential" with
      | none => exact L hs hb
      | some y =>
        obtain ⟨z, hz, hm⟩ := B (o := .essential) rfl hs hb
        rw [hm, mergeEssential_ok hz (.inl rfl)]
  · refine ⟨?_, ?_, ?_, ?_, ?_, ?_⟩
    · intro s hs hn
      cases hb : a.get "subset_of" with
      | none => exact ⟨s, (R hb).trans hs, hn, fun _ h => h⟩
      | some y =>
        obtain ⟨z, hz, hm⟩ := B (o := .subsetOf) rfl hb hs
        obtain ⟨h1, h2⟩ := (mergeIntersect_ok hz).2 hn
        exact ⟨z, hm, h1, h2⟩
    · intro s hs hn
      cases hb : a.get "superset_of" with
      | none => exact ⟨s, (R hb).trans hs, hn, fun _ h => h⟩
      | some y =>
        obtain ⟨z, hz, hm⟩ := B (o := .supersetOf) rfl hb hs
        obtain ⟨h1, h2⟩ := (mergeUnion_ok hz).2 hn
        exact ⟨z, hm, h1, h2⟩
    · intro s hs hn
      cases hb : a.get "one_of" with
      | none => exact ⟨s, (R hb).trans hs, hn, fun _ h => h⟩
      | some y =>
        obtain ⟨z, hz, hm⟩ := B (o := .oneOf) rfl hb hs
        obtain ⟨h1, h2⟩ := (mergeIntersect_ok hz).2 hn
        exact ⟨z, hm, h1, h2⟩
    · intro s hs
      cases hb : a.get "value" with
      | none => exact ⟨s, (R hb).trans hs, SameVal.refl s⟩
      | some y =>
        obtain ⟨z, hz, hm⟩ := B (o := .value) rfl hb hs
        obtain ⟨h1, h2⟩ := mergeValue_ok hz
        exact ⟨z, hm, by rw [h1]; exact sliceEqual_sameVal (ha.nodup y hb) h2⟩
    · intro s hs hn
      cases hb : a.get "default" with
      | none => exact ⟨s, (R hb).trans hs, SameVal.refl s⟩
      | some y =>
        obtain ⟨z, hz, hm⟩ := B (o := .default) rfl hb hs
        rcases mergeDefault_ok hz with ⟨_, rfl⟩ | ⟨_, h1, _⟩ | ⟨_, _, rfl, h2⟩
        · exact ⟨_, hm, SameVal.refl _⟩
        · exact absurd h1 hn
        · exact ⟨_, hm, sliceEqual_sameVal (ha.nodupDefault _ hb) h2⟩
    · intro hs
      unfold Essential at hs ⊢
      cases hb : a.get "essential" with
      | none => exact (R hb).trans hs
      | some y =>
        obtain ⟨z, hz, hm⟩ := B (o := .essential) rfl hb hs
        rw [hm, mergeEssential_ok hz (.inr rfl)]

theorem merge_good {a b m : Entry} (ha : GoodEntry a) (hb : GoodEntry b) (h : mergeEntries a b = .ok m) :
    GoodEntry m := by
  have hg := mergeEntries_get h (noShared_of_known ha.known) ha.wf
  refine ⟨mergeEntries_wf h ha.wf hb.wf, ?_, ?_, ?_⟩
  · rintro n ⟨v, hv⟩
    cases hx : a.get n with
    | some x => exact ha.known n ⟨x, hx⟩
    | none =>
      rw [hg, hx] at hv
      exact hb.known n ⟨v, hv⟩
  · intro s hs
    cases hx : a.get "value" with
    | none =>
      rw [hg, hx] at hs
      exact hb.nodup s hs
    | some x =>
      cases hy : b.get "value" with
      | none =>
        rw [hg, hx, hy] at hs
        cases hs
        exact ha.nodup _ hx
      | some y =>
        obtain ⟨z, hz, hm⟩ := merged_both h ha.known ha.wf (o := .value) rfl hx hy
        rw [hm] at hs
        cases hs
        rw [(mergeValue_ok hz).1]
        exact ha.nodup _ hx
  · intro s hs
    cases hx : a.get "default" with
    | none =>
      rw [hg, hx] at hs
      exact hb.nodupDefault s hs
    | some x =>
      cases hy : b.get "default" with
      | none =>
        rw [hg, hx, hy] at hs
        cases hs
        exact ha.nodupDefault _ hx
      | some y =>
        obtain ⟨z, hz, hm⟩ := merged_both h ha.known ha.wf (o := .default) rfl hx hy
        rw [hm] at hs
        cases hs
        rcases mergeDefault_ok hz with ⟨_, rfl⟩ | ⟨_, _, rfl⟩ | ⟨_, _, rfl, _⟩
        · exact hb.nodupDefault _ hy
        · exact ha.nodupDefault _ hx
        · exact ha.nodupDefault _ hx

/-- Policies: every attribute entry of `p` is tightened by `m`. -/
def PTightens (m p : Policy) : Prop := ∀ k e, AMap.get p k = some e → ∃ e', AMap.get m k = some e' ∧ Tightens e' e

theorem PTightens.refl (p : Policy) : PTightens p p := fun _ e h => ⟨e, h, Tightens.refl e⟩

theorem PTightens.trans {a b c : Policy} (h1 : PTightens a b) (h2 : PTightens b c) : PTightens a c := by
  intro k e he
  obtain ⟨e', h, ht⟩ := h2 k e he
  obtain ⟨e'', h', ht'⟩ := h1 k e' h
  exact ⟨e'', h', ht'.trans ht⟩

theorem combine_tightens {par sub m : Policy} (hp : GoodPolicy par) (hs : GoodPolicy sub)
    (h : combinePolicy par sub = .ok m) : PTightens m par ∧ PTightens m sub ∧ GoodPolicy m := by
  by_cases hse : sub = []
  · subst hse
    cases h
    exact ⟨PTightens.refl _, (fun k e he => by cases he), hp⟩
  · by_cases hpe : par = []
    · subst hpe
      have : m = sub := by
        unfold combinePolicy at h
        rw [if_neg (by simpa using hse)] at h
        exact (Except.ok.inj h).symm
      subst this
      exact ⟨(fun k e he => by cases he), PTightens.refl _, hs⟩
    · obtain ⟨hg, _, hm, hw, _⟩ := combinePolicy_nonempty hpe hse h
      refine ⟨?_, ?_, ⟨hw hp.wf hs.wf, ?_⟩⟩
      · intro k e he
        cases hsk : AMap.get sub k with
        | none => exact ⟨e, by rw [hg, he, hsk]; rfl, Tightens.refl e⟩
        | some f =>
          obtain ⟨z, hz⟩ := hm k e f (get_mem he) hsk
          exact ⟨z, by rw [hg, he, hsk]; simp [mergedEntry, hz], (merge_tightens (hp.entries k e he) hz).1⟩
      · intro k e he
        cases hpk : AMap.get par k with
        | none => exact ⟨e, by rw [hg, he, hpk]; rfl, Tightens.refl e⟩
        | some f =>
          obtain ⟨z, hz⟩ := hm k f e (get_mem hpk) he
          exact ⟨z, by rw [hg, he, hpk]; simp [mergedEntry, hz], (merge_tightens (hp.entries k f hpk) hz).2⟩
      · intro k e he
        rw [hg] at he
        cases hpk : AMap.get par k with
        | none =>
          rw [hpk] at he
          exact hs.entries k e he
        | some f =>
          cases hsk : AMap.get sub k with
          | none =>
            rw [hpk, hsk] at he
            cases he
            exact hp.entries k _ hpk
          | some g =>
            obtain ⟨z, hz⟩ := hm k f g (get_mem hpk) hsk
            rw [hpk, hsk] at he
            simp only [mergedEntry, hz] at he
            cases he
            exact merge_good (hp.entries k f hpk) (hs.entries k g hsk) hz

theorem combineRest_tightens : ∀ {ps : List Policy} {out m : Policy}, GoodPolicy out → (∀ p ∈ ps, GoodPolicy p) →
    combineRest out ps = .ok m → PTightens m out ∧ (∀ p ∈ ps, PTightens m p) ∧ GoodPolicy m := by
  intro ps
  induction ps with
  | nil =>
    intro out m ho _ h
    cases h
    exact ⟨PTightens.refl _, (by intro p hp; cases hp), ho⟩
  | cons p ps ih =>
    intro out m ho hps h
    rw [combineRest] at h
    obtain ⟨q, hq, h⟩ := bind_ok h
    obtain ⟨h1, h2, h3⟩ := combine_tightens ho (hps p (by simp)) hq
    obtain ⟨h4, h5, h6⟩ := ih h3 (fun p hp => hps p (by simp [hp])) h
    refine ⟨h4.trans h1, ?_, h6⟩
    intro p' hp'
    rcases List.mem_cons.mp hp' with rfl | hp'
    · exact h4.trans h2
    · exact h5 p' hp'

theorem combineAll_tightens {ps : List Policy} {m : Policy} (hps : ∀ p ∈ ps, GoodPolicy p)
    (h : combineAll ps = .ok m) : (∀ p ∈ ps, PTightens m p) ∧ (ps ≠ [] → GoodPolicy m) := by
  cases ps with
  | nil => exact ⟨(by intro p hp; cases hp), fun h => absurd rfl h⟩
  | cons p ps =>
    rw [combineAll] at h
    obtain ⟨_, _, h⟩ := bind_ok h
    obtain ⟨h1, h2, h3⟩ := combineRest_tightens (hps p (by simp)) (fun p hp => hps p (by simp [hp])) h
    refine ⟨?_, fun _ => h3⟩
    intro p' hp'
    rcases List.mem_cons.mp hp' with rfl | hp'
    · exact h1
    · exact h2 p' hp'

/-! ## Verification of the combined policy -/

theorem combinePolicy_verified {par sub m : Policy} (h : combinePolicy par sub = .ok m)
    (hp : Policy.verify par = .ok ()) (hs : par ≠ [] ∨ Policy.verify sub = .ok ()) :
    Policy.verify m = .ok () ∧ (par ≠ [] → m ≠ []) := by
  by_cases hse : sub = []
  · subst hse; cases h; exact ⟨hp, id⟩
  · by_cases hpe : par = []
    · subst hpe
      have : m = sub := by
        unfold combinePolicy at h
        rw [if_neg (by simpa using hse)] at h
        exact (Except.ok.inj h).symm
      subst this
      rcases hs with hs | hs
      · exact absurd rfl hs
      · exact ⟨hs, fun h => absurd rfl h⟩
    · obtain ⟨_, h1, _, _, h2⟩ := combinePolicy_nonempty hpe hse h
      exact ⟨h1, fun _ => h2⟩

theorem combineRest_verified : ∀ {ps : List Policy} {out m : Policy}, combineRest out ps = .ok m →
    Policy.verify out = .ok () → (out ≠ [] ∨ ∀ p ∈ ps, Policy.verify p = .ok ()) → Policy.verify m = .ok () := by
  intro ps
  induction ps with
  | nil => intro out m h hv _; cases h; exact hv
  | cons p ps ih =>
    intro out m h hv hs
    rw [combineRest] at h
    obtain ⟨q, hq, h⟩ := bind_ok h
    obtain ⟨h1, h2⟩ := combinePolicy_verified hq hv (hs.imp_right (fun h => h p (by simp)))
    refine ih h h1 ?_
    rcases hs with hs | hs
    · exact .inl (h2 hs)
    · exact .inr (fun p hp => hs p (by simp [hp]))

theorem combineAll_verified {ps : List Policy} {m : Policy} (h : combineAll ps = .ok m)
    (hs : (∃ p, ps.head? = some p ∧ p ≠ []) ∨ ∀ p ∈ ps, Policy.verify p = .ok ()) : Policy.verify m = .ok () := by
  cases ps with
  | nil => cases h; rfl
  | cons p ps =>
    rw [combineAll] at h
    obtain ⟨u, hv, h⟩ := bind_ok h
    refine combineRest_verified h hv ?_
    rcases hs with ⟨p', hp', hn⟩ | hs
    · cases hp'; exact .inl hn
    · exact .inr (fun p hp => hs p (by simp [hp]))

end Oidfed
