import Verif.Lemmas.Chains
/-!
# The returned chains, of every length, in one statement
-/

namespace Oidfed
open Spec

/-- The list returned by a finished run: empty if there is no starting configuration, the starting configuration alone if it
belongs to an anchor or names no authority, and the chains of the valid paths otherwise. -/
theorem mem_run_iff {W : World} {r : Resolver} {fuel : Nat} {cs : List Chain}
    (h : r.chainsNoMeta W fuel = .ok (some cs)) (c : Chain) :
    c ∈ cs ↔ r.start ≠ "" ∧ ∃ s0, W.start r.start = some s0 ∧ s0.metadata.isSome = true ∧
      ((s0.iss ∈ r.anchors.map Anchor.id ∨ s0.hints = []) ∧ c = [restrictTypes r.types s0] ∨
       ∃ steps, ValidPath W r.anchors (restrictTypes r.types s0) steps ∧ IsChainOf (restrictTypes r.types s0) steps c) := by
  have hi : ∀ s : Stmt, (restrictTypes r.types s).iss = s.iss := by intro s; unfold restrictTypes; split <;> rfl
  have hh : ∀ s : Stmt, (restrictTypes r.types s).hints = s.hints := by intro s; unfold restrictTypes; split <;> rfl
  rcases chainsNoMeta_cases h with ⟨h1, rfl⟩ | ⟨s0, T, hst, hs0, hm, hT, rfl⟩
  · constructor
    · intro hc; simp at hc
    · rintro ⟨h2, s0, h3, _⟩
      rcases h1 with h1 | h1
      · exact absurd h1 h2
      · rw [h1] at h3; cases h3
  · by_cases hd : s0.iss ∈ r.anchors.map Anchor.id ∨ s0.hints = []
    · have hd' : (rootPending (restrictTypes r.types s0)).entity.iss ∈ anchorIDs r.anchors ∨
          (rootPending (restrictTypes r.types s0)).entity.hints = [] := by
        simp only [rootPending, hi, hh]; exact hd
      rw [root_degenerate hT rfl hd']
      constructor
      · intro hc
        simp only [List.mem_singleton] at hc
        exact ⟨hst, s0, hs0, hm, .inl ⟨hd, hc⟩⟩
      · rintro ⟨_, s1, hs1, _, ⟨_, h2⟩ | ⟨steps, hv, _⟩⟩
        · rw [hs0] at hs1; cases hs1; simp [h2, rootPending]
        · rw [hs0] at hs1; cases hs1
          exfalso
          cases hs : steps with
          | nil => exact ValidPath.ne_nil hv hs
          | cons a rest =>
            obtain ⟨e, ok, he, _⟩ := step_ok hv 0 a (by simp [hs])
            have := he rfl; subst this
            rcases hd with hd | hd
            · exact ok.below_not_anchor (by rw [hi]; exact hd)
            · have := ok.hinted
              rw [hh, hd] at this
              simp at this
    · constructor
      · intro hc
        have hl : 2 ≤ c.length := by
          rw [root_chains hT rfl (fun h => hd (.inl (by simpa [rootPending, hi, anchorIDs] using h)))
            (fun h => hd (.inr (by simpa [rootPending, hh] using h)))] at hc
          obtain ⟨steps, _, rfl⟩ := hc
          simp
        exact ⟨hst, s0, hs0, hm, .inr ((mem_chains_iff hT c hl).mp hc)⟩
      · rintro ⟨_, s1, hs1, _, ⟨h2, _⟩ | ⟨steps, hv, hch⟩⟩
        · rw [hs0] at hs1; cases hs1; exact absurd h2 hd
        · rw [hs0] at hs1; cases hs1
          have hl : 2 ≤ c.length := by
            obtain ⟨st, _, rfl⟩ := hch; simp
          exact (mem_chains_iff hT c hl).mpr ⟨steps, hv, hch⟩

end Oidfed
