import Verif.Lemmas.Resolver
import Verif.Spec.Chains
/-!
# From returned lists to paths
-/

namespace Oidfed
open Spec (Step Produces ValidPath IsChainOf Signed FirstAnchor AnchorKeys)

theorem filterValidMetadata_mem : ∀ (cs rs : List Chain), filterValidMetadata cs = .ok rs →
    ∀ c, c ∈ rs ↔ c ∈ cs ∧ ∃ m, chainMetadata c = .ok m := by
  intro cs
  induction cs with
  | nil => intro rs h c; simp [filterValidMetadata] at h; subst h; simp
  | cons x xs ih =>
    intro rs h c
    unfold filterValidMetadata at h
    split at h
    · simp at h
    · rename_i he
      rw [ih rs h c]
      constructor
      · rintro ⟨h1, h2⟩; exact ⟨List.mem_cons_of_mem _ h1, h2⟩
      · rintro ⟨h1, m, h2⟩
        rcases List.mem_cons.mp h1 with rfl | h1
        · rw [he] at h2; cases h2
        · exact ⟨h1, m, h2⟩
    · rename_i m hm
      cases hf : filterValidMetadata xs with
      | error e => rw [hf] at h; simp [bind, Except.bind] at h
      | ok r =>
        rw [hf] at h
        simp only [bind, Except.bind, Except.ok.injEq] at h
        subst h
        rw [List.mem_cons, List.mem_cons, ih r hf c]
        constructor
        · rintro (rfl | ⟨h1, h2⟩)
          · exact ⟨.inl rfl, m, hm⟩
          · exact ⟨.inr h1, h2⟩
        · rintro ⟨rfl | h1, h2⟩
          · exact .inl rfl
          · exact .inr ⟨h1, h2⟩

theorem validChains_eq {W : World} {fuel : Nat} {r : Resolver} {cs} (h : r.validChains W fuel = .ok (some cs)) :
    ∃ cs0, r.chainsNoMeta W fuel = .ok (some cs0) ∧ filterValidMetadata cs0 = .ok cs := by
  unfold Resolver.validChains at h
  cases hn : r.chainsNoMeta W fuel with
  | error e => rw [hn] at h; simp [bind, Except.bind] at h
  | ok o =>
    rw [hn] at h
    cases o with
    | none => simp [bind, Except.bind] at h
    | some cs0 =>
      simp only [bind, Except.bind] at h
      cases hf : filterValidMetadata cs0 with
      | error e => rw [hf] at h; simp at h
      | ok r => rw [hf] at h; simp at h; subst h; exact ⟨_, rfl, hf⟩

theorem produces_noMeta {W r c} (h : Produces W r c) :
    ∃ fuel cs, r.chainsNoMeta W fuel = .ok (some cs) ∧ c ∈ cs := by
  obtain ⟨fuel, cs, h | h, hc⟩ := h
  · exact ⟨fuel, cs, h, hc⟩
  · obtain ⟨cs0, h1, h2⟩ := validChains_eq h
    exact ⟨fuel, cs0, h1, ((filterValidMetadata_mem _ _ h2 c).mp hc).1⟩

/-- Shape of a finished run. -/
theorem chainsNoMeta_cases {W : World} {r : Resolver} {fuel : Nat} {cs : List Chain} (h : r.chainsNoMeta W fuel = .ok (some cs)) :
    ((r.start = "" ∨ W.start r.start = none) ∧ cs = []) ∨
    ∃ s0 T, r.start ≠ "" ∧ W.start r.start = some s0 ∧ s0.metadata.isSome = true ∧
      resolve W r.anchors fuel [] (rootPending (restrictTypes r.types s0)) = some T ∧
      cs = chains (verifySigs W.sig r.anchors T) := by
  unfold Resolver.chainsNoMeta Resolver.resolveTree at h
  split at h
  · rename_i he
    left
    simp only [bind, Except.bind, Option.map_some, Except.ok.injEq, Option.some.injEq] at h
    refine ⟨.inl (by simpa using he), ?_⟩
    rw [← h]; rfl
  · rename_i he
    split at h
    · rename_i hs
      left
      simp only [bind, Except.bind, Option.map_some, Except.ok.injEq, Option.some.injEq] at h
      exact ⟨.inr hs, by rw [← h]; rfl⟩
    · rename_i s0 hs
      split at h
      · simp [bind, Except.bind] at h
      · rename_i hm
        right
        simp only [bind, Except.bind, Except.ok.injEq, Option.map_eq_some_iff] at h
        obtain ⟨T, h1, h2⟩ := h
        refine ⟨s0, T, by simpa using he, hs, ?_, h1, h2.symm⟩
        cases hmm : s0.metadata <;> simp_all

theorem isChainOf_iff (leaf : Stmt) (steps : List Step) (c : Chain) (h : steps ≠ []) :
    IsChainOf leaf steps c ↔ c = leaf :: (steps.map Step.sub ++ [lastEntity leaf steps]) := by
  unfold IsChainOf
  cases hl : steps.getLast? with
  | none => exact absurd (by simpa using hl) h
  | some s =>
    rw [(last_getLast steps s hl leaf none).1]
    simp

theorem ValidPath.ne_nil {W A leaf steps} (h : ValidPath W A leaf steps) : steps ≠ [] := by
  rintro rfl
  obtain ⟨s, _, _, h, _⟩ := h.top
  simp at h

/-- The returned chains of two or more statements are exactly the chains of valid paths. -/
theorem mem_chains_iff {W A fuel s T} (h : resolve W A fuel [] (rootPending s) = some T) (c : Chain)
    (hl : 2 ≤ c.length) :
    c ∈ chains (verifySigs W.sig A T) ↔ ∃ steps, ValidPath W A s steps ∧ IsChainOf s steps c := by
  by_cases hd : s.iss ∈ anchorIDs A ∨ s.hints = []
  · rw [root_degenerate h rfl hd]
    constructor
    · intro hc; simp only [List.mem_singleton] at hc; subst hc; simp at hl
    · rintro ⟨steps, hv, _⟩
      exfalso
      cases hs : steps with
      | nil => exact ValidPath.ne_nil hv hs
      | cons st rest =>
        have ok := hv.steps_ok 0 s st (by simp [Spec.entities]) (by simp [hs])
        rcases hd with hd | hd
        · exact ok.below_not_anchor hd
        · have := ok.hinted; rw [hd] at this; simp at this
  · have hna : s.iss ∉ anchorIDs A := fun h => hd (.inl h)
    have hne : s.hints ≠ [] := fun h => hd (.inr h)
    rw [root_chains h rfl hna hne]
    constructor
    · rintro ⟨steps, hg, rfl⟩
      have hv := (good_valid W A s steps).mp hg
      exact ⟨steps, hv, (isChainOf_iff _ _ _ (ValidPath.ne_nil hv)).mpr rfl⟩
    · rintro ⟨steps, hv, hc⟩
      exact ⟨steps, (good_valid W A s steps).mpr hv, (isChainOf_iff _ _ _ (ValidPath.ne_nil hv)).mp hc⟩

theorem produces_path {W r c} (h : Produces W r c) (hl : 2 ≤ c.length) :
    ∃ s0 steps, W.start r.start = some s0 ∧ ValidPath W r.anchors (restrictTypes r.types s0) steps ∧
      IsChainOf (restrictTypes r.types s0) steps c := by
  obtain ⟨fuel, cs, h1, hc⟩ := produces_noMeta h
  rcases chainsNoMeta_cases h1 with ⟨_, rfl⟩ | ⟨s0, T, _, hs, _, hT, rfl⟩
  · simp at hc
  · obtain ⟨steps, hv, hch⟩ := (mem_chains_iff hT c hl).mp hc
    exact ⟨s0, steps, hs, hv, hch⟩

theorem chain_get {leaf steps c} (h : IsChainOf leaf steps c) :
    c.length = steps.length + 2 ∧ c[0]? = some leaf ∧
    (∀ k st, steps[k]? = some st → c[k+1]? = some st.sub) ∧
    (∀ k s, k + 2 < c.length → c[k+1]? = some s → ∃ st, steps[k]? = some st ∧ s = st.sub) ∧
    (∃ st, steps.getLast? = some st ∧ c[steps.length + 1]? = some st.ec) := by
  obtain ⟨st, h1, rfl⟩ := h
  refine ⟨by simp, by simp, ?_, ?_, st, h1, by simp⟩
  · intro k s hs
    have : k < steps.length := (List.getElem?_eq_some_iff.mp hs).1
    rw [List.getElem?_cons_succ, List.getElem?_append_left (by simpa using this), List.getElem?_map, hs]; rfl
  · intro k s hk hs
    have hk' : k < steps.length := by simp at hk; omega
    rw [List.getElem?_cons_succ, List.getElem?_append_left (by simpa using hk'), List.getElem?_map] at hs
    simp only [Option.map_eq_some_iff] at hs
    obtain ⟨st, h2, rfl⟩ := hs
    exact ⟨st, h2, rfl⟩

/-- For every step there is the entity below it. -/
theorem entity_below (leaf : Stmt) (steps : List Step) (k : Nat) (st : Step) (h : steps[k]? = some st) :
    ∃ e, (Spec.entities leaf steps)[k]? = some e ∧
      (k = 0 → e = leaf) ∧ (∀ j, k = j + 1 → ∃ s', steps[j]? = some s' ∧ e = s'.ec) := by
  cases k with
  | zero => exact ⟨leaf, by simp [Spec.entities], fun _ => rfl, by intro j hj; omega⟩
  | succ k =>
    have hk : k < steps.length := by have := (List.getElem?_eq_some_iff.mp h).1; omega
    refine ⟨steps[k].ec, by simp [Spec.entities, hk], by omega, ?_⟩
    intro j hj
    have : j = k := by omega
    subst this
    exact ⟨steps[j], by simp [hk], rfl⟩

theorem step_ok {W A leaf steps} (hv : ValidPath W A leaf steps) (k : Nat) (st : Step) (h : steps[k]? = some st) :
    ∃ e, Spec.StepOk W A leaf steps k e st ∧ (k = 0 → e = leaf) ∧
      (∀ j, k = j + 1 → ∃ s', steps[j]? = some s' ∧ e = s'.ec) := by
  obtain ⟨e, h1, h2, h3⟩ := entity_below leaf steps k st h
  exact ⟨e, hv.steps_ok k e st h1 h, h2, h3⟩

end Oidfed
