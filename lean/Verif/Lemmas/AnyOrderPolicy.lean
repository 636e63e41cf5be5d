import Verif.Lemmas.AnyOrder
/-!
# Combining whole policies in any order
-/

namespace Oidfed
open Spec

/-- The operand of an operator for an attribute. -/
def Policy.val (p : Policy) (k : String) (op : OpName) : Option Val := (AMap.get p k).bind (fun e => AMap.get e op)

/-- Policies as they should be. -/
structure OrdPolicy (p : Policy) : Prop extends KnownPolicy p where
  valid : Policy.verify p = .ok ()
  ord : ∀ k op, OrdOpt op (p.val k op)

theorem ordPolicy_of {p : Policy} (h : OrdinaryPolicy p) : OrdPolicy p := by
  refine ⟨⟨h.wf, fun k e he => ⟨(h.entries k e he).wf, (h.entries k e he).known⟩⟩, h.valid, ?_⟩
  intro k op v hv
  unfold Policy.val at hv
  cases he : AMap.get p k with
  | none => rw [he] at hv; cases hv
  | some e =>
    rw [he] at hv
    have hv : e.get op = some v := hv
    have hk := (h.entries k e he).known op ⟨v, hv⟩
    unfold Known at hk
    rcases hk with rfl | rfl | rfl | rfl | rfl | rfl | rfl
    · exact ⟨.value, rfl, (h.entries k e he).nodup v hv⟩
    · exact ⟨.add, rfl, h.arrays k e _ v he (by decide) hv⟩
    · exact ⟨.default, rfl, (h.entries k e he).nodupDefault v hv⟩
    · exact ⟨.oneOf, rfl, h.arrays k e _ v he (by decide) hv⟩
    · exact ⟨.subsetOf, rfl, h.arrays k e _ v he (by decide) hv⟩
    · exact ⟨.supersetOf, rfl, h.arrays k e _ v he (by decide) hv⟩
    · exact ⟨.essential, rfl, h.booleans k e v he hv⟩

theorem val_some {p : Policy} {k : String} {e : Entry} (h : AMap.get p k = some e) (op : OpName) : p.val k op = e.get op := by
  unfold Policy.val
  rw [h]
  rfl

theorem val_none {p : Policy} {k : String} (h : AMap.get p k = none) (op : OpName) : p.val k op = none := by
  unfold Policy.val
  rw [h]
  rfl

theorem samePolicy_iff (p q : Policy) : SamePolicy p q ↔ ∀ k, (AMap.get p k).isSome = (AMap.get q k).isSome ∧ ∀ op, SameOpt (p.val k op) (q.val k op) := by
  refine forall_congr' fun k => and_congr_right fun h => ?_
  cases hp : AMap.get p k with
  | none =>
    cases hq : AMap.get q k with
    | none =>
      constructor
      · intro _ op; rw [val_none hp, val_none hq]; trivial
      · intro _ a b h; cases h
    | some b => rw [hp, hq] at h; cases h
  | some a =>
    cases hq : AMap.get q k with
    | none => rw [hp, hq] at h; cases h
    | some b =>
      constructor
      · intro h op
        rw [val_some hp, val_some hq]
        exact (sameEntry_iff a b).mp (h a b rfl rfl) op
      · intro h a' b' h1 h2
        cases h1
        cases h2
        exact (sameEntry_iff _ _).mpr fun op => by have := h op; rwa [val_some hp, val_some hq] at this

theorem samePolicy_refl (p : Policy) : SamePolicy p p := (samePolicy_iff p p).mpr fun _ => ⟨rfl, fun _ => SameOpt.refl _⟩

theorem samePolicy_trans {p q r : Policy} (h : SamePolicy p q) (h' : SamePolicy q r) : SamePolicy p r := by
  rw [samePolicy_iff] at h h' ⊢
  exact fun k => ⟨(h k).1.trans (h' k).1, fun op => ((h k).2 op).trans ((h' k).2 op)⟩

/-- What combining gives, in terms of the operands. -/
theorem combine_val {p q m : Policy} (hp : KnownPolicy p) (hpe : p ≠ []) (hqe : q ≠ []) (h : combinePolicy p q = .ok m) :
    (∀ k op, mo op (p.val k op) (q.val k op) = .ok (m.val k op)) ∧ ∀ k, (AMap.get m k).isSome = ((AMap.get p k).isSome || (AMap.get q k).isSome) := by
  obtain ⟨hg, _, hm, _, _⟩ := combinePolicy_nonempty hpe hqe h
  have key : ∀ k, (∀ op, mo op (p.val k op) (q.val k op) = .ok (m.val k op)) ∧ (AMap.get m k).isSome = ((AMap.get p k).isSome || (AMap.get q k).isSome) := by
    intro k
    have hk := hg k
    cases hx : AMap.get p k with
    | none =>
      rw [hx] at hk
      refine ⟨fun op => ?_, by rw [hk]; simp [mergedEntry]⟩
      rw [val_none hx]
      show Except.ok _ = Except.ok _
      unfold Policy.val
      rw [hk]
      rfl
    | some x =>
      cases hy : AMap.get q k with
      | none =>
        rw [hx, hy] at hk
        refine ⟨fun op => ?_, by rw [hk]; rfl⟩
        rw [val_none hy, mo_none_right]
        unfold Policy.val
        rw [hk, hx]
        rfl
      | some y =>
        obtain ⟨z, hz⟩ := hm k x y (get_mem hx) hy
        rw [hx, hy] at hk
        simp only [mergedEntry, hz] at hk
        refine ⟨fun op => ?_, by rw [hk]; rfl⟩
        rw [val_some hx, val_some hy, val_some hk]
        exact entry_get (hp.entries k x hx).2 (hp.entries k x hx).1 hz op
  exact ⟨fun k => (key k).1, fun k => (key k).2⟩

/-- Policies can be combined if the operands can, and the result is valid. -/
theorem combine_of_val {p q : Policy} (hp : KnownPolicy p) (hq : KnownPolicy q) (hpe : p ≠ []) (hqe : q ≠ []) (h : ∀ k op, ∃ z, mo op (p.val k op) (q.val k op) = .ok z) :
    ∃ m : Policy, KnownPolicy m ∧ (∀ k op, mo op (p.val k op) (q.val k op) = .ok (m.val k op)) ∧ (∀ k, (AMap.get m k).isSome = ((AMap.get p k).isSome || (AMap.get q k).isSome)) ∧
      (Policy.verify m = .ok () → combinePolicy p q = .ok m) := by
  have hm : ∀ k x y, (k, x) ∈ p → AMap.get q k = some y → ∃ z, mergeEntries x y = .ok z := by
    intro k x y hx hy
    have hx := mem_get hp.wf hx
    refine (entry_ok_iff (b := y) (hp.entries k x hx).2 (hp.entries k x hx).1).mpr fun op => ?_
    have := h k op
    rwa [val_some hx, val_some hy] at this
  obtain ⟨m, hg, hw, hv⟩ := combinePolicy_of hpe hqe hm
  refine ⟨m, ⟨hw hp.wf hq.wf, ?_⟩, ?_, ?_, hv⟩
  · intro k e he
    rw [hg] at he
    cases hx : AMap.get p k with
    | none => rw [hx] at he; exact hq.entries k e he
    | some x =>
      cases hy : AMap.get q k with
      | none => rw [hx, hy] at he; cases he; exact hp.entries k _ hx
      | some y =>
        obtain ⟨z, hz⟩ := hm k x y (get_mem hx) hy
        rw [hx, hy] at he
        simp only [mergedEntry, hz] at he
        cases he
        have hkx := hp.entries k x hx
        have hky := hq.entries k y hy
        refine ⟨mergeEntries_wf hz hkx.1 hky.1, ?_⟩
        rintro n ⟨v, hv⟩
        have hn := entry_get hkx.2 hkx.1 hz n
        cases hxn : x.get n with
        | some w => exact hkx.2 n ⟨w, hxn⟩
        | none =>
          rw [hxn] at hn
          exact hky.2 n ⟨v, (Except.ok.inj hn).trans hv⟩
  · intro k op
    have hk := hg k
    cases hx : AMap.get p k with
    | none =>
      rw [hx] at hk
      rw [val_none hx]
      show Except.ok _ = Except.ok _
      unfold Policy.val
      rw [hk]
      rfl
    | some x =>
      cases hy : AMap.get q k with
      | none =>
        rw [hx, hy] at hk
        rw [val_none hy, mo_none_right]
        unfold Policy.val
        rw [hk, hx]
        rfl
      | some y =>
        obtain ⟨z, hz⟩ := hm k x y (get_mem hx) hy
        rw [hx, hy] at hk
        simp only [mergedEntry, hz] at hk
        rw [val_some hx, val_some hy, val_some hk]
        exact entry_get (hp.entries k x hx).2 (hp.entries k x hx).1 hz op
  · intro k
    rw [hg]
    cases hx : AMap.get p k with
    | none => simp [mergedEntry]
    | some x =>
      cases hy : AMap.get q k with
      | none => rfl
      | some y =>
        obtain ⟨z, hz⟩ := hm k x y (get_mem hx) hy
        simp [mergedEntry, hz]

theorem combine_ord {p q m : Policy} (hp : OrdPolicy p) (hq : OrdPolicy q) (h : combinePolicy p q = .ok m) : OrdPolicy m := by
  rcases combine_cases h with ⟨_, rfl⟩ | ⟨_, rfl⟩ | ⟨hpe, hqe⟩
  · exact hp
  · exact hq
  · refine ⟨combine_known hp.toKnownPolicy hq.toKnownPolicy h, (combinePolicy_nonempty hpe hqe h).2.1, fun k op => ?_⟩
    exact mo_ord (hp.ord k op) (hq.ord k op) ((combine_val hp.toKnownPolicy hpe hqe h).1 k op)

theorem combine_nil_left (q : Policy) : combinePolicy [] q = .ok q := by
  unfold combinePolicy
  cases q <;> rfl

theorem same_empty {p q : Policy} (h : SamePolicy p q) (hp : p = []) : q = [] := by
  subst hp
  cases q with
  | nil => rfl
  | cons kv q =>
    have := (h kv.1).1
    simp [AMap.get] at this

theorem samePolicy_symm {p q : Policy} (h : SamePolicy p q) : SamePolicy q p :=
  fun k => ⟨(h k).1.symm, fun a b ha hb => ((h k).2 b a hb ha).symm⟩

/-- Combining does not tell policies apart that mean the same. -/
theorem combine_same {p p' q m : Policy} (hp : OrdPolicy p) (hp' : OrdPolicy p') (hq : OrdPolicy q) (sp : SamePolicy p p') (h : combinePolicy p q = .ok m) :
    ∃ m', combinePolicy p' q = .ok m' ∧ SamePolicy m m' := by
  rcases combine_cases h with ⟨rfl, rfl⟩ | ⟨rfl, rfl⟩ | ⟨hpe, hqe⟩
  · exact ⟨p', rfl, sp⟩
  · rw [same_empty sp rfl]
    exact ⟨_, combine_nil_left _, samePolicy_refl _⟩
  · have hpe' : p' ≠ [] := fun e => hpe (same_empty (samePolicy_symm sp) e)
    obtain ⟨hv, hs⟩ := combine_val hp.toKnownPolicy hpe hqe h
    have sp0 := (samePolicy_iff p p').mp sp
    have A := fun k op => mo_same (hp.ord k op) (hp'.ord k op) (hq.ord k op) (hq.ord k op) ((sp0 k).2 op) (SameOpt.refl _) (hv k op)
    obtain ⟨m', hw, hv', hs', hc⟩ := combine_of_val hp'.toKnownPolicy hq.toKnownPolicy hpe' hqe (fun k op => (A k op).imp fun _ h => h.1)
    have same : SamePolicy m m' := by
      refine (samePolicy_iff m m').mpr fun k => ⟨by rw [hs, hs', (sp0 k).1], fun op => ?_⟩
      obtain ⟨z, h1, h2⟩ := A k op
      cases h1.symm.trans (hv' k op)
      exact h2
    have hm := combine_ord hp hq h
    exact ⟨m', hc (same_policy_verify hw.wf same (fun k e he => (hm.entries k e he).2) hm.valid), same⟩

/-- Two policies can change places. -/
theorem combine_swap {o x y z m : Policy} (ho : OrdPolicy o) (hx : OrdPolicy x) (hy : OrdPolicy y) (h1 : combinePolicy o x = .ok z) (h2 : combinePolicy z y = .ok m) :
    ∃ w m', combinePolicy o y = .ok w ∧ combinePolicy w x = .ok m' ∧ SamePolicy m m' := by
  by_cases hxe : x = []
  · subst hxe
    cases h1
    exact ⟨m, m, h2, rfl, samePolicy_refl m⟩
  by_cases hye : y = []
  · subst hye
    cases h2
    exact ⟨o, _, rfl, h1, samePolicy_refl _⟩
  have hz := combine_ord ho hx h1
  have hm := combine_ord hz hy h2
  have hze : z ≠ [] := by
    by_cases hoe : o = []
    · subst hoe
      rw [combine_nil_left] at h1
      cases h1
      exact hxe
    · exact (combinePolicy_nonempty hoe hxe h1).2.2.2.2
  -- in terms of operands, an empty policy is no exception
  have v1 : (∀ k op, mo op (o.val k op) (x.val k op) = .ok (z.val k op)) ∧ ∀ k, (AMap.get z k).isSome = ((AMap.get o k).isSome || (AMap.get x k).isSome) := by
    by_cases hoe : o = []
    · subst hoe
      rw [combine_nil_left] at h1
      cases h1
      exact ⟨fun k op => rfl, fun k => by simp [AMap.get]⟩
    · exact combine_val ho.toKnownPolicy hoe hxe h1
  have v2 := combine_val hz.toKnownPolicy hze hye h2
  have A := fun k op => mo_swap (ho.ord k op) (hx.ord k op) (hy.ord k op) (v1.1 k op) (v2.1 k op)
  -- the policy combined first
  have hw : ∃ w : Policy, w ≠ [] ∧ KnownPolicy w ∧ (∀ k op, OrdOpt op (w.val k op)) ∧ (∀ k op, mo op (o.val k op) (y.val k op) = .ok (w.val k op)) ∧
      (∀ k, (AMap.get w k).isSome = ((AMap.get o k).isSome || (AMap.get y k).isSome)) ∧ (Policy.verify w = .ok () → combinePolicy o y = .ok w) := by
    by_cases hoe : o = []
    · subst hoe
      exact ⟨y, hye, hy.toKnownPolicy, hy.ord, fun k op => rfl, fun k => by simp [AMap.get], fun _ => combine_nil_left y⟩
    · obtain ⟨w, hwf, hv, hs, hc⟩ := combine_of_val ho.toKnownPolicy hy.toKnownPolicy hoe hye (fun k op => by obtain ⟨w, _, h, _⟩ := A k op; exact ⟨w, h⟩)
      have hord : ∀ k op, OrdOpt op (w.val k op) := fun k op => mo_ord (ho.ord k op) (hy.ord k op) (hv k op)
      refine ⟨w, ?_, hwf, hord, hv, hs, hc⟩
      rintro rfl
      cases o with
      | nil => exact hoe rfl
      | cons kv o =>
        have := hs kv.1
        simp [AMap.get] at this
  obtain ⟨w, hwe, hwk, hwo, wv, ws, wc⟩ := hw
  obtain ⟨m', hwf', mv, ms, mc⟩ := combine_of_val hwk hx.toKnownPolicy hwe hxe (fun k op => by
    obtain ⟨w', m', h3, h4, _⟩ := A k op
    cases h3.symm.trans (wv k op)
    exact ⟨m', h4⟩)
  have same : SamePolicy m m' := by
    refine (samePolicy_iff m m').mpr fun k => ⟨?_, fun op => ?_⟩
    · rw [v2.2, v1.2, ms, ws]
      cases (AMap.get o k).isSome <;> cases (AMap.get x k).isSome <;> cases (AMap.get y k).isSome <;> rfl
    · obtain ⟨w', m1, h3, h4, h5⟩ := A k op
      cases h3.symm.trans (wv k op)
      cases h4.symm.trans (mv k op)
      exact h5
  have hv' := same_policy_verify hwf'.wf same (fun k e he => (hm.entries k e he).2) hm.valid
  have hkm' : ∀ k e, AMap.get m' k = some e → KnownOps e := by
    intro k e he
    cases ha : AMap.get m k with
    | none => have := (same k).1; rw [ha, he] at this; cases this
    | some a => exact same_known ((same k).2 a e ha he) (hm.entries k a ha).2
  have hvw : Policy.verify w = .ok () := by
    refine policy_verify_of_get hwk.wf fun k e he => ?_
    have hsome : (AMap.get m' k).isSome = true := by rw [ms, he]; rfl
    obtain ⟨e', he'⟩ := Option.isSome_iff_exists.mp hsome
    refine (verify_iff_allowed (hwk.entries k e he).2).mpr (weaker_allowed (m := e') (fun op => by rw [← val_some he]; exact hwo k op) ?_
      ((verify_iff_allowed (hkm' k e' he')).mp (policy_verify_get hv' he')))
    intro op v hv
    have := mo_tighter (hwo k op) (hx.ord k op) (mv k op) (by rw [val_some he]; exact hv)
    rwa [val_some he'] at this
  exact ⟨w, m', wc hvw, mc hv', same⟩

theorem combineRest_same {ps : List Policy} (hps : ∀ p ∈ ps, OrdPolicy p) : ∀ {out out' m : Policy}, OrdPolicy out → OrdPolicy out' → SamePolicy out out' →
    combineRest out ps = .ok m → ∃ m', combineRest out' ps = .ok m' ∧ SamePolicy m m' := by
  induction ps with
  | nil => intro out out' m _ _ hs h; cases h; exact ⟨out', rfl, hs⟩
  | cons p ps ih =>
    intro out out' m ho ho' hs h
    rw [combineRest] at h
    obtain ⟨z, hz, h⟩ := bind_ok h
    have hp := hps p List.mem_cons_self
    obtain ⟨z', hz', hs'⟩ := combine_same ho ho' hp hs hz
    obtain ⟨m', hm', hsm⟩ := ih (fun p hp => hps p (List.mem_cons_of_mem _ hp)) (combine_ord ho hp hz) (combine_ord ho' hp hz') hs' h
    refine ⟨m', ?_, hsm⟩
    rw [combineRest, hz']
    exact hm'

theorem combineRest_perm {ps qs : List Policy} (h : ps.Perm qs) : (∀ p ∈ ps, OrdPolicy p) → ∀ {out m : Policy}, OrdPolicy out → combineRest out ps = .ok m →
    ∃ m', combineRest out qs = .ok m' ∧ SamePolicy m m' := by
  induction h with
  | nil => intro _ out m _ h; exact ⟨m, h, samePolicy_refl m⟩
  | cons p _ ih =>
    intro hps out m ho h
    rw [combineRest] at h
    obtain ⟨z, hz, h⟩ := bind_ok h
    obtain ⟨m', hm', hs⟩ := ih (fun p hp => hps p (List.mem_cons_of_mem _ hp)) (combine_ord ho (hps p List.mem_cons_self) hz) h
    refine ⟨m', ?_, hs⟩
    rw [combineRest, hz]
    exact hm'
  | swap x y ps =>
    intro hps out m ho h
    have hy := hps y (by simp)
    have hx := hps x (by simp)
    rw [combineRest] at h
    obtain ⟨z, hz, h⟩ := bind_ok h
    rw [combineRest] at h
    obtain ⟨n, hn, h⟩ := bind_ok h
    obtain ⟨w, n', h1, h2, hs⟩ := combine_swap ho hy hx hz hn
    have hw := combine_ord ho hx h1
    obtain ⟨m', hm', hsm⟩ := combineRest_same (fun p hp => hps p (by simp [hp])) (combine_ord (combine_ord ho hy hz) hx hn) (combine_ord hw hy h2) hs h
    refine ⟨m', ?_, hsm⟩
    rw [combineRest, h1]
    show combineRest w (y :: ps) = .ok m'
    rw [combineRest, h2]
    exact hm'
  | trans h1 _ ih1 ih2 =>
    intro hps out m ho h
    obtain ⟨m1, h3, s1⟩ := ih1 hps ho h
    obtain ⟨m2, h4, s2⟩ := ih2 (fun p hp => hps p (h1.mem_iff.mpr hp)) ho h3
    exact ⟨m2, h4, samePolicy_trans s1 s2⟩

theorem ordPolicy_nil : OrdPolicy [] :=
  ⟨⟨by simp [AMap.WF, AMap.keys], fun k e h => by cases h⟩, rfl, fun k op v h => by cases h⟩

theorem combineAll_rest {ps : List Policy} (hps : ∀ p ∈ ps, OrdPolicy p) : combineAll ps = combineRest [] ps := by
  cases ps with
  | nil => rfl
  | cons p ps =>
    rw [combineAll, combineRest, (hps p List.mem_cons_self).valid, combine_nil_left]
    rfl

theorem combineAll_perm {ps qs : List Policy} (h : ps.Perm qs) (hps : ∀ p ∈ ps, OrdPolicy p) {m : Policy} (hm : combineAll ps = .ok m) :
    ∃ m', combineAll qs = .ok m' ∧ SamePolicy m m' := by
  rw [combineAll_rest hps] at hm
  rw [combineAll_rest fun p hp => hps p (h.mem_iff.mpr hp)]
  exact combineRest_perm h hps ordPolicy_nil hm

end Oidfed
