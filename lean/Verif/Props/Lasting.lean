import Verif.Spec.Monotone
import Verif.Lemmas.ChainsExact
import Verif.Props.ChainFilter
import Verif.Examples.Federation
/-!
# C155: until when a chain can be obtained
-/

namespace Oidfed
open Spec

/-- C155 (part): a chain that is returned is also returned at every later time up to its expiry, if the configurations of the intermediate authorities do not
expire before. -/
theorem C155_until_expiry_partial (W W' : World) (hW : Later W W') (r : Resolver) (fuel fuel' : Nat) (cs cs' : List Chain)
    (h : r.chainsNoMeta W fuel = .ok (some cs)) (h' : r.chainsNoMeta W' fuel' = .ok (some cs')) (c : Chain) (hc : c ∈ cs)
    (hexp : ∀ p, W'.nowEC p ≤ chainExp c ∧ W'.nowSub p ≤ chainExp c)
    (hmid : ∀ p id s, W.ec p id = some s → id ∉ r.anchors.map Anchor.id → s.exp = Time.zero ∨ W'.nowEC p ≤ s.exp) : c ∈ cs' := by
  obtain ⟨hst, s0, hs0, hm, hd⟩ := (mem_run_iff h c).mp hc
  refine (mem_run_iff h' c).mpr ⟨hst, s0, by rw [hW.start]; exact hs0, hm, hd.imp id ?_⟩
  rintro ⟨steps, hv, hch⟩
  have hle : ∀ s ∈ c, chainExp c ≤ s.exp := (C16_expiry_is_earliest c (by rintro rfl; obtain ⟨_, _, h⟩ := hch; cases h)).2
  have hin : (∀ s ∈ steps, s.sub ∈ c) ∧ ∀ s, steps.getLast? = some s → s.ec ∈ c := by
    obtain ⟨last, hl, rfl⟩ := hch
    refine ⟨fun s hs => ?_, fun s hs => ?_⟩
    · exact List.mem_cons_of_mem _ (List.mem_append_left _ (List.mem_map_of_mem hs))
    · rw [hl] at hs
      cases hs
      exact List.mem_cons_of_mem _ (List.mem_append_right _ (List.mem_singleton_self _))
  have win : ∀ {n n' : Time} {s : Stmt}, n ≤ n' → (s.exp = Time.zero ∨ n' ≤ s.exp) → InWindow n s → InWindow n' s := by
    rintro n n' s h1 h2 ⟨h3, _⟩
    exact ⟨h3.imp id (fun h => Int.le_trans h h1), h2⟩
  refine ⟨steps, ⟨?_, ?_, ?_, ?_⟩, hch⟩
  · intro k e s he hs
    have ok := hv.steps_ok k e s he hs
    exact {
      below_not_anchor := ok.below_not_anchor
      hinted := ok.hinted
      not_visited := ok.not_visited
      served := by rw [hW.ec]; exact ok.served
      self_issued := ok.self_issued
      ec_time := by
        refine win (hW.nowEC _) ?_ ok.ec_time
        cases hn : steps[k+1]? with
        | some next =>
          refine hmid _ _ _ ok.served ?_
          obtain ⟨e', ok', he'⟩ := step_ok hv (k+1) next hn
          obtain ⟨x, hx, rfl⟩ := he'.2 k rfl
          rw [hs] at hx
          cases hx
          exact ok'.below_not_anchor
        | none =>
          refine .inr (Int.le_trans (hexp _).1 (hle _ (hin.2 s ?_)))
          have h1 := List.getElem?_eq_none_iff.mp hn
          obtain ⟨h2, _⟩ := List.getElem?_eq_some_iff.mp hs
          rw [List.getLast?_eq_getElem?, show steps.length - 1 = k by omega]
          exact hs
      has_fetch := ok.has_fetch
      fetched := by rw [hW.fetch]; exact ok.fetched
      sub_iss := ok.sub_iss
      sub_sub := ok.sub_sub
      sub_time := win (hW.nowSub _) (.inr (Int.le_trans (hexp _).2 (hle _ (hin.1 s (List.mem_of_getElem? hs))))) ok.sub_time
      constraints := by rw [hW.host]; exact ok.constraints }
  · rw [hW.sig]; exact hv.leaf_signed
  · rw [hW.sig]; exact hv.mid_signed
  · rw [hW.sig]; exact hv.top

/-- C155 (part) for `ResolveToValidChains`. -/
theorem C155_until_expiry_valid_partial (W W' : World) (hW : Later W W') (r : Resolver) (fuel fuel' : Nat) (cs cs' : List Chain)
    (h : r.validChains W fuel = .ok (some cs)) (h' : r.validChains W' fuel' = .ok (some cs')) (c : Chain) (hc : c ∈ cs)
    (hexp : ∀ p, W'.nowEC p ≤ chainExp c ∧ W'.nowSub p ≤ chainExp c)
    (hmid : ∀ p id s, W.ec p id = some s → id ∉ r.anchors.map Anchor.id → s.exp = Time.zero ∨ W'.nowEC p ≤ s.exp) : c ∈ cs' := by
  obtain ⟨cs0, h1, h2⟩ := validChains_eq h
  obtain ⟨cs1, h3, h4⟩ := validChains_eq h'
  have hm := (filterValidMetadata_mem _ _ h2 c).mp hc
  exact (filterValidMetadata_mem _ _ h4 c).mpr ⟨C155_until_expiry_partial W W' hW r _ _ _ _ h1 h3 c hm.1 hexp hmid, hm.2⟩

namespace ExLa

/-- The example federation at time `now`, where the configuration of `i` expires at `e`. -/
def world (e now : Time) : World :=
  { Ex.W with
    ec := fun _ id => if id = "i" then some { Ex.iEC with exp := e } else Ex.ecOf id
    nowEC := fun _ => now
    nowSub := fun _ => now }

theorem later (e : Time) : Later (world e 50) (world e 80) :=
  ⟨rfl, rfl, rfl, rfl, rfl, fun _ => (by decide : (50 : Int) ≤ 80), fun _ => (by decide : (50 : Int) ≤ 80)⟩

theorem chain_exp : chainExp Ex.chainI = (100 : Int) := rfl

end ExLa

/-- **C155** fails: the expiry of a chain does not take the configurations of intermediate authorities into account; the chain over `i` expires at 100, but after 60,
when the configuration of `i` expires, it is not returned any more. -/
theorem C155_until_expiry_refuted : ¬ ∀ (W W' : World), Later W W' → ∀ (r : Resolver) (fuel fuel' : Nat) (cs cs' : List Chain),
    r.chainsNoMeta W fuel = .ok (some cs) → r.chainsNoMeta W' fuel' = .ok (some cs') → ∀ c ∈ cs,
    (∀ p, W'.nowEC p ≤ chainExp c ∧ W'.nowSub p ≤ chainExp c) → c ∈ cs' := by
  intro h
  have := h (ExLa.world 60 50) (ExLa.world 60 80) (ExLa.later 60) Ex.R 5 5 [Ex.chainI, Ex.chainJ] [Ex.chainJ] rfl rfl Ex.chainI (by simp)
    (fun _ => ⟨(by decide : (80 : Int) ≤ 100), (by decide : (80 : Int) ≤ 100)⟩)
  have he := congrArg (fun c : Chain => c.map Stmt.iss) (List.mem_singleton.mp this)
  exact absurd he (by decide)

/-- with configurations that live long enough, both chains are returned until 100 -/
example : Ex.chainI ∈ [Ex.chainI, Ex.chainJ] :=
  C155_until_expiry_partial (ExLa.world 100 50) (ExLa.world 100 80) (ExLa.later 100) Ex.R 5 5 [Ex.chainI, Ex.chainJ] [Ex.chainI, Ex.chainJ] rfl rfl Ex.chainI (by simp)
    (fun _ => ⟨(by decide : (80 : Int) ≤ 100), (by decide : (80 : Int) ≤ 100)⟩)
    (by
      intro p id s hs _
      refine .inr ?_
      have : s.exp = (100 : Int) := by
        simp only [ExLa.world] at hs
        split at hs
        · cases hs; rfl
        · unfold Ex.ecOf at hs
          split at hs <;> cases hs <;> rfl
      rw [this]
      exact (by decide : (80 : Int) ≤ 100))

end Oidfed
