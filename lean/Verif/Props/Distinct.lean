import Verif.Lemmas.Distinct
import Verif.Examples.Federation
/-!
# C150: no chain is returned twice, and chains come in the order of the leaf's authority hints
-/

namespace Oidfed

/-- No configuration that is served, to start with or for an authority, names an authority twice. -/
def NoHintTwice (W : World) : Prop :=
  (∀ (a : ID) (s : Stmt), W.start a = some s → s.hints.Nodup) ∧
  ∀ (p : Pos) (a : ID) (s : Stmt), W.ec p a = some s → s.hints.Nodup

theorem restrictTypes_hints (ty : List String) (s : Stmt) : (restrictTypes ty s).hints = s.hints := by
  unfold restrictTypes; split <;> rfl

/-- C150 (no duplicates), partial: if no configuration names an authority twice, then neither without nor with the check of
the metadata a chain is returned twice. Missing: configurations with repeated hints (`C150_duplicates_refuted`). -/
theorem C150_distinct_partial (W : World) (r : Resolver) (hW : NoHintTwice W) (fuel : Nat) (cs : List Chain)
    (h : r.chainsNoMeta W fuel = .ok (some cs) ∨ r.validChains W fuel = .ok (some cs)) : cs.Nodup := by
  have main : ∀ cs, r.chainsNoMeta W fuel = .ok (some cs) → cs.Nodup := by
    intro cs h
    rcases chainsNoMeta_cases h with ⟨_, rfl⟩ | ⟨s0, T, _, hs0, _, hT, rfl⟩
    · simp
    · refine node_nodup hW.2 fuel _ _ T hT ?_
      show (restrictTypes r.types s0).hints.Nodup
      rw [restrictTypes_hints]
      exact hW.1 _ _ hs0
  rcases h with h | h
  · exact main cs h
  · obtain ⟨cs0, h0, hf⟩ := validChains_eq h
    exact (main cs0 h0).sublist (filterValidMetadata_sublist _ _ hf)

/-- the example federation names no authority twice and two different chains are returned -/
example : NoHintTwice Ex.W ∧ ∃ cs, Ex.R.chainsNoMeta Ex.W 5 = .ok (some cs) ∧ cs.length = 2 := by
  have : ∀ (a : ID) (s : Stmt), Ex.ecOf a = some s → s.hints.Nodup := by
    intro a s h
    unfold Ex.ecOf at h
    split at h
    all_goals first | (cases h; decide) | cases h
  exact ⟨⟨this, fun _ => this⟩, _, rfl, rfl⟩

/-- the example federation with a leaf that names `i` twice -/
def twiceLeaf : Stmt := { Ex.leafEC with hints := ["i", "i"] }
def twiceW : World := { Ex.W with start := fun a => if a = "l" then some twiceLeaf else Ex.ecOf a }

/-- C150 (repeated hints): if the leaf names its authority twice, the chain over it is returned twice. -/
theorem C150_duplicates_refuted : ¬ ∀ (W : World) (r : Resolver) (fuel : Nat) (cs : List Chain),
    r.chainsNoMeta W fuel = .ok (some cs) → cs.Nodup := by
  intro h
  have := h twiceW Ex.R 5 [[twiceLeaf, Ex.mk "i" "l" (some [1]) 2, { Ex.mk "t" "i" (some [2]) 3 with constraints := some Ex.cons }, Ex.tEC],
    [twiceLeaf, Ex.mk "i" "l" (some [1]) 2, { Ex.mk "t" "i" (some [2]) 3 with constraints := some Ex.cons }, Ex.tEC]] rfl
  rw [List.nodup_cons] at this
  exact this.1 List.mem_cons_self

/-- C150 (order): the returned chains come in the order in which the leaf names its authorities: to every chain a position among
the leaf's authority hints can be assigned, such that the authority there has issued the statement about the leaf in that chain, and
such that later chains have the same or later positions. -/
theorem C150_order (W : World) (r : Resolver) (fuel : Nat) (cs : List Chain)
    (h : r.chainsNoMeta W fuel = .ok (some cs) ∨ r.validChains W fuel = .ok (some cs))
    (s0 : Stmt) (hs0 : W.start r.start = some s0) :
    ∃ qs : List (Nat × Chain), qs.map Prod.snd = cs ∧ qs.Pairwise (fun a b => a.1 ≤ b.1) ∧
      ∀ q ∈ qs, ∀ s, q.2[1]? = some s → s.sub = s0.iss ∧ s0.hints[q.1]? = some s.iss := by
  have main : ∀ cs, r.chainsNoMeta W fuel = .ok (some cs) → ∃ qs : List (Nat × Chain), qs.map Prod.snd = cs ∧
      qs.Pairwise (fun a b => a.1 ≤ b.1) ∧
      ∀ q ∈ qs, ∀ s, q.2[1]? = some s → s.sub = s0.iss ∧ s0.hints[q.1]? = some s.iss := by
    intro cs h
    rcases chainsNoMeta_cases h with ⟨_, rfl⟩ | ⟨s1, T, _, hs1, _, hT, rfl⟩
    · exact ⟨[], rfl, by simp, by simp⟩
    · rw [hs0] at hs1; cases hs1
      have hent : (rootPending (restrictTypes r.types s0)).entity = restrictTypes r.types s0 := rfl
      have hiss : (restrictTypes r.types s0).iss = s0.iss := by unfold restrictTypes; split <;> rfl
      by_cases hd : (rootPending (restrictTypes r.types s0)).entity.iss ∈ anchorIDs r.anchors ∨
          (rootPending (restrictTypes r.types s0)).entity.hints = []
      · rw [root_degenerate hT rfl hd]
        exact ⟨[(0, _)], rfl, by simp, by simp⟩
      · simp only [not_or] at hd
        cases fuel with
        | zero => simp [resolve] at hT
        | succ fuel =>
          unfold resolve at hT
          simp only at hT
          rw [if_neg (by simpa using hd.1)] at hT
          simp only [Option.bind_eq_bind, Option.bind_eq_some_iff] at hT
          obtain ⟨⟨ts, e⟩, h1, h2⟩ := hT
          simp only [Option.some.injEq] at h2
          subst h2
          have hh : (rootPending (restrictTypes r.types s0)).entity.hints.isEmpty = false := by
            cases hh : (rootPending (restrictTypes r.types s0)).entity.hints with
            | nil => exact absurd hh hd.2
            | cons _ _ => rfl
          rw [hh, show (rootPending (restrictTypes r.types s0)).subordinate = none from rfl]
          simp only [verifySigs, Bool.false_eq_true, if_false, chains]
          obtain ⟨ps, p1, _, p3, p4⟩ := chainsList_order (sig := W.sig) (A := r.anchors)
            (Q := fun p sb => s0.hints[p]? = some sb.iss ∧ sb.sub = s0.iss)
            (rootPending (restrictTypes r.types s0)).entity (some (rootPending (restrictTypes r.types s0)).entity) none ts 0
            (by
              intro j tt hj c hc
              obtain ⟨hj1, hj2⟩ := List.getElem?_eq_some_iff.mp hj
              subst hj2
              obtain ⟨sb, rr, hc, hq, hq'⟩ := auths_head h1 j hj1 c hc
              rw [hent, restrictTypes_hints] at hq
              rw [hent, hiss] at hq'
              exact ⟨sb, rr, hc, by rwa [Nat.zero_add], hq'⟩)
          refine ⟨ps.zip _, List.map_snd_zip (by omega), ?_, ?_⟩
          · rw [← List.map_fst_zip (l₁ := ps) (Nat.le_of_eq p3), List.pairwise_map] at p1
            exact p1
          · intro q hq s hs
            obtain ⟨k, hk⟩ := List.mem_iff_getElem?.mp hq
            rw [List.getElem?_zip_eq_some] at hk
            obtain ⟨sb, rr, hc, hq1, hq2⟩ := p4 k q.2 q.1 hk.2 hk.1
            rw [hc] at hs
            cases hs
            exact ⟨hq2, hq1⟩
  rcases h with h | h
  · exact main cs h
  · obtain ⟨cs0, h0, hf⟩ := validChains_eq h
    obtain ⟨qs, rfl, q2, q3⟩ := main cs0 h0
    obtain ⟨qs', hsub, rfl⟩ := List.sublist_map_iff.mp (filterValidMetadata_sublist _ _ hf)
    exact ⟨qs', rfl, q2.sublist hsub, fun q hq => q3 q (hsub.subset hq)⟩

/-- in the example the leaf names `i` before `j`, and the chain over `i` comes first -/
example : ∃ cs, Ex.R.chainsNoMeta Ex.W 5 = .ok (some cs) ∧ Ex.W.start Ex.R.start = some Ex.leafEC ∧
    Ex.leafEC.hints = ["i", "j"] ∧ cs.map (fun c => (c[1]?).map Stmt.iss) = [some "i", some "j"] :=
  ⟨_, rfl, rfl, rfl, rfl⟩

end Oidfed
