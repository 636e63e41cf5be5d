import Verif.Lemmas.MergeAlgebra
import Verif.Model.Metadata
/-! Merging and applying depend on the policies as maps, not on the order in which the maps are listed. -/

namespace Oidfed
open Spec

theorem Spec.EqEntry.same {a b : Entry} (h : EqEntry a b) : SameEntry a b := by
  intro op
  unfold Has
  rw [h op]
  exact ⟨Iff.rfl, fun x y hx hy => by rw [hx] at hy; cases hy; exact SameVal.refl x⟩

theorem Spec.EqPolicy.same {p q : Policy} (h : EqPolicy p q) : SamePolicy p q :=
  fun k => ⟨(h k).1, fun a b ha hb => ((h k).2 a b ha hb).same⟩

theorem Spec.EqPolicy.symm {p q : Policy} (h : EqPolicy p q) : EqPolicy q p :=
  fun k => ⟨(h k).1.symm, fun a b ha hb op => ((h k).2 b a hb ha op).symm⟩

theorem eq_merge {a a' b b' m : Entry} (ha : EqEntry a a') (hb : EqEntry b b') (hk : KnownOps a) (hw : a.WF)
    (hw' : a'.WF) (h : mergeEntries a b = .ok m) : ∃ m', mergeEntries a' b' = .ok m' ∧ EqEntry m m' := by
  have hk' : KnownOps a' := same_known ha.same hk
  have hg := entry_get hk hw h
  have hex : ∀ op, ∃ z, mo op (a'.get op) (b'.get op) = .ok z := by
    intro op
    rw [← ha op, ← hb op]
    exact ⟨_, hg op⟩
  obtain ⟨m', hm'⟩ := (entry_ok_iff hk' hw').mpr hex
  refine ⟨m', hm', fun op => ?_⟩
  have h1 := entry_get hk' hw' hm' op
  rw [← ha op, ← hb op, hg op] at h1
  exact Except.ok.inj h1

theorem eq_nil {p q : Policy} (h : EqPolicy p q) (hp : p = []) : q = [] := by
  subst hp
  cases q with
  | nil => rfl
  | cons kv q =>
    have := (h kv.1).1
    simp [AMap.get] at this

theorem combine_known {p q m : Policy} (hp : KnownPolicy p) (hq : KnownPolicy q) (h : combinePolicy p q = .ok m) :
    KnownPolicy m := by
  by_cases hqe : q = []
  · subst hqe; cases h; exact hp
  · by_cases hpe : p = []
    · subst hpe
      unfold combinePolicy at h
      rw [if_neg (by simpa using hqe)] at h
      cases h
      exact hq
    · obtain ⟨hg, _, hm, hw, _⟩ := combinePolicy_nonempty hpe hqe h
      refine ⟨hw hp.wf hq.wf, ?_⟩
      intro k e he
      rw [hg] at he
      cases hx : AMap.get p k with
      | none => rw [hx] at he; exact hq.entries k e he
      | some x =>
        cases hy : AMap.get q k with
        | none => rw [hx, hy] at he; cases he; exact hp.entries k _ hx
        | some y =>
          obtain ⟨z, hz⟩ := hm k x y (get_mem hx) hy
          rw [hx, hy] at he
          simp only [mergedEntry, hz] at he
          cases he
          obtain ⟨xw, xk⟩ := hp.entries k x hx
          obtain ⟨yw, yk⟩ := hq.entries k y hy
          refine ⟨mergeEntries_wf hz xw yw, ?_⟩
          rintro n ⟨v, hv⟩
          have hg' := mergeEntries_get hz (noShared_of_known xk) xw n
          cases hxn : x.get n with
          | some u => exact xk n ⟨u, hxn⟩
          | none =>
            rw [hg', hxn] at hv
            exact yk n ⟨v, hv⟩

theorem eq_combine {p p' q q' m : Policy} (ep : EqPolicy p p') (eq : EqPolicy q q') (hp : KnownPolicy p)
    (hp' : KnownPolicy p') (hq : KnownPolicy q) (hq' : KnownPolicy q') (h : combinePolicy p q = .ok m) :
    ∃ m', combinePolicy p' q' = .ok m' ∧ EqPolicy m m' := by
  by_cases hqe : q = []
  · have hqe' := eq_nil eq hqe
    subst hqe; subst hqe'
    cases h
    exact ⟨p', rfl, ep⟩
  · have hqe' : q' ≠ [] := fun e => hqe (eq_nil eq.symm e)
    by_cases hpe : p = []
    · have hpe' := eq_nil ep hpe
      subst hpe; subst hpe'
      unfold combinePolicy at h
      rw [if_neg (by simpa using hqe)] at h
      cases h
      refine ⟨q', ?_, eq⟩
      unfold combinePolicy
      rw [if_neg (by simpa using hqe')]
      rfl
    · have hpe' : p' ≠ [] := fun e => hpe (eq_nil ep.symm e)
      have hkm := combine_known hp hq h
      obtain ⟨hg, hv, hm, hw, _⟩ := combinePolicy_nonempty hpe hqe h
      have hmm : ∀ k x' y', AMap.get p' k = some x' → AMap.get q' k = some y' →
          ∃ x y z z', AMap.get p k = some x ∧ AMap.get q k = some y ∧ mergeEntries x y = .ok z ∧
            mergeEntries x' y' = .ok z' ∧ EqEntry z z' := by
        intro k x' y' hx' hy'
        have e1 := (ep k).1
        have e2 := (eq k).1
        rw [hx'] at e1
        rw [hy'] at e2
        cases hx : AMap.get p k with
        | none => rw [hx] at e1; cases e1
        | some x =>
          cases hy : AMap.get q k with
          | none => rw [hy] at e2; cases e2
          | some y =>
            obtain ⟨z, hz⟩ := hm k x y (get_mem hx) hy
            obtain ⟨z', hz', he⟩ := eq_merge ((ep k).2 x x' hx hx') ((eq k).2 y y' hy hy') (hp.entries k x hx).2
              (hp.entries k x hx).1 (hp'.entries k x' hx').1 hz
            exact ⟨x, y, z, z', rfl, rfl, hz, hz', he⟩
      obtain ⟨m', hg', hw', hv'⟩ := combinePolicy_of hpe' hqe' (fun k x' y' hx' hy' => by
        obtain ⟨_, _, _, z', _, _, _, h4, _⟩ := hmm k x' y' (mem_get hp'.wf hx') hy'
        exact ⟨z', h4⟩)
      have hsame : EqPolicy m m' := by
        intro k
        rw [hg, hg']
        have e1 := (ep k).1
        have e2 := (eq k).1
        cases hx' : AMap.get p' k with
        | none =>
          rw [hx'] at e1
          cases hx : AMap.get p k with
          | some x => rw [hx] at e1; cases e1
          | none => exact ⟨e2, (eq k).2⟩
        | some x' =>
          rw [hx'] at e1
          cases hx : AMap.get p k with
          | none => rw [hx] at e1; cases e1
          | some x =>
            cases hy' : AMap.get q' k with
            | none =>
              rw [hy'] at e2
              cases hy : AMap.get q k with
              | some y => rw [hy] at e2; cases e2
              | none =>
                refine ⟨rfl, ?_⟩
                intro a b ha hb
                cases ha
                cases hb
                exact (ep k).2 _ _ hx hx'
            | some y' =>
              obtain ⟨x1, y1, z, z', h1, h2, h3, h4, h5⟩ := hmm k x' y' hx' hy'
              rw [hx] at h1
              cases h1
              rw [h2]
              simp only [mergedEntry, h3, h4, Option.isSome_some, true_and]
              intro a b ha hb
              cases ha
              cases hb
              exact h5
      exact ⟨m', hv' (same_policy_verify (hw' hp'.wf hq'.wf) hsame.same (fun k e he => (hkm.entries k e he).2) hv), hsame⟩

theorem eq_combineRest {ps ps' : List Policy} (he : Each EqPolicy ps ps') : ∀ {out out' m : Policy},
    EqPolicy out out' → KnownPolicy out → KnownPolicy out' → (∀ p ∈ ps, KnownPolicy p) → (∀ p ∈ ps', KnownPolicy p) →
    combineRest out ps = .ok m → ∃ m', combineRest out' ps' = .ok m' ∧ EqPolicy m m' := by
  induction he with
  | nil =>
    intro out out' m ho _ _ _ _ h
    cases h
    exact ⟨out', rfl, ho⟩
  | @cons p p' ps ps' hp _ ih =>
    intro out out' m ho k1 k2 k3 k4 h
    rw [combineRest] at h
    obtain ⟨q, hq, h⟩ := bind_ok h
    obtain ⟨q', hq', e⟩ := eq_combine ho hp k1 k2 (k3 p (by simp)) (k4 p' (by simp)) hq
    obtain ⟨m', hm', e'⟩ := ih e (combine_known k1 (k3 p (by simp)) hq) (combine_known k2 (k4 p' (by simp)) hq')
      (fun p hp => k3 p (by simp [hp])) (fun p hp => k4 p (by simp [hp])) h
    refine ⟨m', ?_, e'⟩
    rw [combineRest, hq']
    exact hm'

theorem eq_combineAll {ps ps' : List Policy} (he : Each EqPolicy ps ps') (k3 : ∀ p ∈ ps, KnownPolicy p)
    (k4 : ∀ p ∈ ps', KnownPolicy p) {m : Policy} (h : combineAll ps = .ok m) :
    ∃ m', combineAll ps' = .ok m' ∧ EqPolicy m m' := by
  cases he with
  | nil => cases h; exact ⟨[], rfl, fun k => ⟨rfl, fun a b ha => by cases ha⟩⟩
  | @cons p p' ps ps' hp hr =>
    rw [combineAll] at h
    obtain ⟨_, hv, h⟩ := bind_ok h
    have kp := k3 p (by simp)
    have hv' := same_policy_verify (k4 p' (by simp)).wf hp.same (fun k e he => (kp.entries k e he).2) hv
    obtain ⟨m', hm', e⟩ := eq_combineRest hr hp kp (k4 p' (by simp)) (fun p hp => k3 p (by simp [hp]))
      (fun p hp => k4 p (by simp [hp])) h
    refine ⟨m', ?_, e⟩
    rw [combineAll, hv']
    exact hm'

/-! ## Application -/

theorem eq_applyLoop {p q : Entry} (h : EqEntry p q) (b : Bool) (ns : List OpName) :
    ∀ c, applyLoop p b ns c = applyLoop q b ns c := by
  induction ns with
  | nil => intro c; rfl
  | cons n ns ih =>
    intro c
    have : applyStep p b c n = applyStep q b c n := by unfold applyStep; rw [h n]
    rw [applyLoop, applyLoop, this]
    cases applyStep q b c n with
    | error f => rfl
    | ok c' => exact ih c'

theorem eq_applyCur {p q : Entry} (h : EqEntry p q) (c : Cur) : p.applyCur c = q.applyCur c := by
  have : p.essential = q.essential := by unfold Entry.essential; rw [h]
  unfold Entry.applyCur
  rw [this]
  exact eq_applyLoop h _ _ c

theorem eq_applyFields {p q : Policy} (h : EqPolicy p q) (ws : List String) (fs : List Field) :
    applyFields p ws fs = applyFields q ws fs := by
  induction fs with
  | nil => rfl
  | cons f fs ih =>
    rw [applyFields, applyFields, ih]
    have : applyField p ws f = applyField q ws f := by
      unfold applyField
      obtain ⟨h1, h2⟩ := h f.tag
      cases hp : AMap.get p f.tag with
      | none =>
        rw [hp] at h1
        cases hq : AMap.get q f.tag with
        | none => rfl
        | some b => rw [hq] at h1; cases h1
      | some a =>
        rw [hp] at h1
        cases hq : AMap.get q f.tag with
        | none => rw [hq] at h1; cases h1
        | some b =>
          dsimp only
          unfold Entry.applyTo
          rw [eq_applyCur (h2 a b hp hq)]
    rw [this]

end Oidfed
