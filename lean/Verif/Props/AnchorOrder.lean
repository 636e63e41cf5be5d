import Verif.Props.Superiors
/-!
# C161: the order of the trust anchors
-/

namespace Oidfed
open Spec

theorem resolve_ids {W : World} {A A' : List Anchor} (h : ∀ x, (anchorIDs A).contains x = (anchorIDs A').contains x) : ∀ (fuel : Nat) (p : Pos) (t : Pending),
    resolve W A fuel p t = resolve W A' fuel p t := by
  intro fuel
  induction fuel with
  | zero => intro p t; rfl
  | succ fuel ih =>
    intro p t
    have e : resolve W A fuel = resolve W A' fuel := funext fun p => funext fun t => ih p t
    unfold resolve
    rw [h, e]

mutual
theorem verifySigs_anchors {sig : SigOracle} {A A' : List Anchor} (h : ∀ e s, matchingAnchor A e s = matchingAnchor A' e s) : ∀ t : Tree, verifySigs sig A t = verifySigs sig A' t
  | .node e s n as v x d ty ids => by
    have ha := verifyAuths_anchors (sig := sig) h as
    unfold verifySigs
    cases e <;> cases s <;> simp only [h, ha]
theorem verifyAuths_anchors {sig : SigOracle} {A A' : List Anchor} (h : ∀ e s, matchingAnchor A e s = matchingAnchor A' e s) : ∀ (l : List Tree) (e s : Option Stmt),
    verifyAuths sig A e s l = verifyAuths sig A' e s l
  | [], e, s => by unfold verifyAuths; rfl
  | t :: l, e, s => by
    unfold verifyAuths
    rw [verifySigs_anchors h t]
    simp only [verifyAuths_anchors h l]
end

/-- Anchors with different identifiers are found by their identifier. -/
theorem find_anchor {A : List Anchor} (hn : (A.map Anchor.id).Nodup) {f : Anchor → Bool} {i : ID} (hf : ∀ a, f a = true → a.id = i) (ta : Anchor) :
    A.find? f = some ta ↔ ta ∈ A ∧ f ta = true := by
  constructor
  · intro h
    exact ⟨List.mem_of_find?_eq_some h, List.find?_some h⟩
  · rintro ⟨hm, ht⟩
    induction A with
    | nil => cases hm
    | cons a A ih =>
      rw [List.map_cons, List.nodup_cons] at hn
      rcases List.mem_cons.mp hm with rfl | hm
      · simp [ht]
      · have : f a ≠ true := by
          intro ha
          apply hn.1
          rw [hf a ha, ← hf ta ht]
          exact List.mem_map.mpr ⟨ta, hm, rfl⟩
        rw [List.find?_cons_of_neg this]
        exact ih hn.2 hm

/-- **C161** (part): if no trust anchor is configured twice, the order in which the anchors are configured is of no importance: the same chains are returned, in the same order. -/
theorem C161_order_partial (W : World) (A A' : List Anchor) (start : ID) (types : List String) (hn : (A.map Anchor.id).Nodup) (hp : A.Perm A') (fuel : Nat) :
    Resolver.chainsNoMeta W fuel ⟨A, start, types⟩ = Resolver.chainsNoMeta W fuel ⟨A', start, types⟩ ∧
      Resolver.validChains W fuel ⟨A, start, types⟩ = Resolver.validChains W fuel ⟨A', start, types⟩ := by
  have hn' : (A'.map Anchor.id).Nodup := (hp.map Anchor.id).nodup_iff.mp hn
  have hids : ∀ x, (anchorIDs A).contains x = (anchorIDs A').contains x := by
    intro x
    rw [Bool.eq_iff_iff, List.contains_iff_mem, List.contains_iff_mem]
    exact (hp.map Anchor.id).mem_iff
  have hm : ∀ e s, matchingAnchor A e s = matchingAnchor A' e s := by
    intro e s
    have hf : ∀ a : Anchor, (a.id == e.iss && a.id == e.sub && a.id == s.iss) = true → a.id = e.iss := by
      intro a ha
      simp only [Bool.and_eq_true, beq_iff_eq] at ha
      exact ha.1.1
    apply Option.ext
    intro ta
    unfold matchingAnchor
    rw [find_anchor hn hf, find_anchor hn' hf, hp.mem_iff]
  have h : Resolver.chainsNoMeta W fuel ⟨A, start, types⟩ = Resolver.chainsNoMeta W fuel ⟨A', start, types⟩ := by
    unfold Resolver.chainsNoMeta Resolver.resolveTree
    simp only [resolve_ids hids, verifySigs_anchors hm]
  exact ⟨h, by unfold Resolver.validChains; rw [h]⟩

/-- **C161** fails if an anchor is configured twice with different keys: only the first entry counts. -/
theorem C161_order_refuted : ¬ ∀ (W : World) (A A' : List Anchor) (start : ID) (types : List String), A.Perm A' → ∀ fuel : Nat,
    Resolver.validChains W fuel ⟨A, start, types⟩ = Resolver.validChains W fuel ⟨A', start, types⟩ := by
  intro h
  have := h Ex.W [⟨"t", some [3]⟩, ⟨"t", some [4]⟩] [⟨"t", some [4]⟩, ⟨"t", some [3]⟩] "l" [] (List.Perm.swap _ _ _) 5
  cases this

/-- Two anchors, the chains to one of which are found. -/
example : (([⟨"t", some [3]⟩, ⟨"u", some [4]⟩] : List Anchor).map Anchor.id).Nodup ∧ ([⟨"t", some [3]⟩, ⟨"u", some [4]⟩] : List Anchor).Perm [⟨"u", some [4]⟩, ⟨"t", some [3]⟩] ∧
    ∃ cs, Resolver.validChains Ex.W 5 ⟨[⟨"t", some [3]⟩, ⟨"u", some [4]⟩], "l", []⟩ = .ok (some cs) ∧ cs ≠ [] :=
  ⟨by decide, List.Perm.swap _ _ _, _, rfl, by intro h; cases h⟩

end Oidfed
