import Verif.Lemmas.Distinct
import Verif.Props.OwnPolicy
/-!
# C158: chains whose metadata cannot be resolved, and the others
-/

namespace Oidfed
open Spec

/-- C158 (exactness): `ResolveToValidChains` returns exactly those chains that `ResolveToValidChainsWithoutVerifyingMetadata` returns and whose metadata can be
resolved, in the same order. -/
theorem C158_exact (W : World) (r : Resolver) (fuel : Nat) (cs cs0 : List Chain) (h : r.validChains W fuel = .ok (some cs))
    (h0 : r.chainsNoMeta W fuel = .ok (some cs0)) : cs.Sublist cs0 ∧ ∀ c, c ∈ cs ↔ c ∈ cs0 ∧ ∃ m, chainMetadata c = .ok m := by
  obtain ⟨cs1, h1, h2⟩ := validChains_eq h
  rw [h0] at h1
  cases h1
  exact ⟨filterValidMetadata_sublist _ _ h2, filterValidMetadata_mem _ _ h2⟩

theorem filterValidMetadata_total : ∀ {cs : List Chain}, (∀ c ∈ cs, chainMetadata c ≠ .error .panic) → ∃ cs', filterValidMetadata cs = .ok cs' := by
  intro cs
  induction cs with
  | nil => intro _; exact ⟨[], rfl⟩
  | cons c cs ih =>
    intro h
    obtain ⟨cs', hcs⟩ := ih (fun x hx => h x (List.mem_cons_of_mem _ hx))
    unfold filterValidMetadata
    cases hc : chainMetadata c with
    | error f =>
      cases f with
      | panic => exact absurd hc (h c List.mem_cons_self)
      | error => exact ⟨cs', hcs⟩
    | ok m => exact ⟨c :: cs', by rw [hcs]; rfl⟩

/-- C158 (part): unless resolving the metadata of some chain panics, every chain whose metadata can be resolved is returned, whatever is the matter with the
others. -/
theorem C158_returned_partial (W : World) (r : Resolver) (fuel : Nat) (cs0 : List Chain) (h0 : r.chainsNoMeta W fuel = .ok (some cs0))
    (hp : ∀ c ∈ cs0, chainMetadata c ≠ .error .panic) :
    ∃ cs, r.validChains W fuel = .ok (some cs) ∧ ∀ c ∈ cs0, ∀ m, chainMetadata c = .ok m → c ∈ cs := by
  obtain ⟨cs, hcs⟩ := filterValidMetadata_total hp
  have hv : r.validChains W fuel = .ok (some cs) := by
    unfold Resolver.validChains
    rw [h0]
    show (filterValidMetadata cs0).bind _ = _
    rw [hcs]
    rfl
  exact ⟨cs, hv, fun c hc m hm => ((C158_exact W r fuel cs cs0 hv h0).2 c).mpr ⟨hc, m, hm⟩⟩

namespace ExIs

/-- The example federation with a relying party as leaf, where `i` has the policy `p` for it. -/
def world (p : Policy) : World :=
  { Ex.W with
    start := fun id => if id = "l" then some (ExOP.leaf none) else none
    fetch := fun _ ep sub _ => (Ex.fetchOf ep sub).map (fun s => if s.iss = "i" then { s with policy := ExOP.pol p } else s) }

/-- the chain over `j`, which has no policy -/
def other : Chain := [ExOP.leaf none, Ex.mk "j" "l" (some [1]) 2, { Ex.mk "t" "j" (some [2]) 3 with constraints := some Ex.cons }, Ex.tEC]

/-- the chain over `i` -/
def via (p : Policy) : Chain :=
  [ExOP.leaf none, { Ex.mk "i" "l" (some [1]) 2 with policy := ExOP.pol p }, { Ex.mk "t" "i" (some [2]) 3 with constraints := some Ex.cons }, Ex.tEC]

theorem run (p : Policy) : Ex.R.chainsNoMeta (world p) 5 = .ok (some [via p, other]) := rfl

end ExIs

/-- **C158** fails: an authority hides the chains over others with a policy whose application panics; here it prescribes a number for a text. -/
theorem C158_hidden_refuted : ¬ ∀ (W : World) (r : Resolver) (fuel : Nat) (cs0 : List Chain), r.chainsNoMeta W fuel = .ok (some cs0) →
    ∃ cs, r.validChains W fuel = .ok (some cs) ∧ ∀ c ∈ cs0, ∀ m, chainMetadata c = .ok m → c ∈ cs := by
  intro h
  obtain ⟨cs, hv, _⟩ := h (ExIs.world [("client_name", [("value", .num 1)])]) Ex.R 5 _ (ExIs.run _)
  cases hv

/-- a policy that cannot be satisfied does not hide the other chain -/
example : ∃ cs, Ex.R.validChains (ExIs.world [("contacts", [("superset_of", jl ["y"])])]) 5 = .ok (some cs) ∧ cs = [ExIs.other] ∧
    (∃ m, chainMetadata ExIs.other = .ok m) ∧ chainMetadata (ExIs.via [("contacts", [("superset_of", jl ["y"])])]) = .error .error ∧
    ∀ c ∈ [ExIs.via [("contacts", [("superset_of", jl ["y"])])], ExIs.other], chainMetadata c ≠ .error .panic := by
  refine ⟨_, rfl, rfl, ⟨_, rfl⟩, rfl, ?_⟩
  intro c hc
  rcases List.mem_cons.mp hc with rfl | hc
  · intro h; cases h
  · rw [List.mem_singleton.mp hc]
    intro h; cases h

end Oidfed
