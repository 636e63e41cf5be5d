import Verif.Spec.VerifiedCollect
import Verif.Props.Narrow
import Verif.Props.MetaResolver
import Verif.Props.Discovery
import Verif.Lemmas.ChainsExact
/-!
# C165: collections of entities with verified chains
-/

namespace Oidfed
open Spec

theorem restrict_none (s : Stmt) : restrictTypes [] s = s := rfl

theorem asks_ends {E : Env} {pos : ID → CallPos} {R : DResolver} {anchor : ID} {es : List Collected} (h : AsksLocally E pos R anchor es) :
    ∀ e ∈ es, ∃ cs, (Req.mk e.id [anchor] []).resolver.validChains (E.world (pos e.id)) E.depth = .ok (some cs) := by
  intro e he
  obtain ⟨b, _, hl⟩ := h e he
  unfold localPossible at hl
  split at hl
  · cases hl
  · cases hl
  · rename_i cs hc
    exact ⟨cs, hc⟩

/-- **C165**, exactly what is returned by a finished collection, for every federation, request, schedule and all further filters: the entities that are listed at or below the
anchor, pass the criteria of the request and the filters, and either have a path of valid statements to the anchor on which the metadata resolves, or, whoever vouches for them,
are the anchor or name no authority. -/
theorem C165_returned (CE : CollectEnv) (q : CollectReq) (out : List ID) (h : Collects CE q out) (E : Env) (pos : ID → CallPos) (R : DResolver) (fs : List EFilter)
    (pass : EFilter → Collected → Bool) (es : List Collected) (hes : es.map Collected.id = out) (hR : AsksLocally E pos R q.anchor es)
    (hf : ∀ f ∈ fs, ∀ e ∈ es, f (some e) = .ok (pass f e)) :
    ∃ res : List Collected, verifiedCollect R q.anchor fs (es.map some) = .ok (res.map some) ∧ res.Sublist es ∧
      ∀ x, x ∈ res.map Collected.id ↔ (Member (Lists CE) q.anchor x ∧ Passes CE q x) ∧ (∃ e ∈ es, e.id = x ∧ ∀ f ∈ fs, pass f e = true) ∧
        x ≠ "" ∧ ∃ s0, (E.world (pos x)).start x = some s0 ∧ s0.metadata.isSome = true ∧
          ((s0.iss = q.anchor ∨ s0.hints = []) ∧ (∃ m, chainMetadata [s0] = .ok m) ∨
           ∃ steps c m, ValidPath (E.world (pos x)) [⟨q.anchor, none⟩] s0 steps ∧ IsChainOf s0 steps c ∧ chainMetadata c = .ok m) := by
  obtain ⟨res, h1, h2, h3⟩ := C48_verified_chains E pos R q.anchor fs es pass (asks_ends hR) hR hf
  refine ⟨res, h1, h2, fun x => ?_⟩
  have key : ∀ x ∈ es.map Collected.id, (∃ cs c, (Req.mk x [q.anchor] []).resolver.validChains (E.world (pos x)) E.depth = .ok (some cs) ∧ c ∈ cs) ↔
      x ≠ "" ∧ ∃ s0, (E.world (pos x)).start x = some s0 ∧ s0.metadata.isSome = true ∧
          ((s0.iss = q.anchor ∨ s0.hints = []) ∧ (∃ m, chainMetadata [s0] = .ok m) ∨
           ∃ steps c m, ValidPath (E.world (pos x)) [⟨q.anchor, none⟩] s0 steps ∧ IsChainOf s0 steps c ∧ chainMetadata c = .ok m) := by
    intro x hx
    obtain ⟨e, he, rfl⟩ := List.mem_map.mp hx
    obtain ⟨cs, hc⟩ := asks_ends hR e he
    obtain ⟨cs0, hc0, hfl⟩ := validChains_eq hc
    have hm := mem_run_iff hc0
    have hv := filterValidMetadata_mem _ _ hfl
    simp only [Req.resolver, restrict_none, List.map_cons, List.map_nil, List.mem_singleton] at hm
    constructor
    · rintro ⟨cs', c, hc', hcm⟩
      rw [hc] at hc'
      cases hc'
      obtain ⟨hcm, m, hmm⟩ := (hv c).mp hcm
      obtain ⟨g1, s0, g2, g3, ⟨g4, rfl⟩ | ⟨steps, g4, g5⟩⟩ := (hm c).mp hcm
      · exact ⟨g1, s0, g2, g3, .inl ⟨g4, m, hmm⟩⟩
      · exact ⟨g1, s0, g2, g3, .inr ⟨steps, c, m, g4, g5, hmm⟩⟩
    · rintro ⟨g1, s0, g2, g3, ⟨g4, m, hmm⟩ | ⟨steps, c, m, g4, g5, hmm⟩⟩
      · exact ⟨cs, [s0], hc, (hv _).mpr ⟨(hm _).mpr ⟨g1, s0, g2, g3, .inl ⟨g4, rfl⟩⟩, m, hmm⟩⟩
      · exact ⟨cs, c, hc, (hv _).mpr ⟨(hm _).mpr ⟨g1, s0, g2, g3, .inr ⟨steps, g4, g5⟩⟩, m, hmm⟩⟩
  constructor
  · intro hx
    obtain ⟨e, he, rfl⟩ := List.mem_map.mp hx
    obtain ⟨g1, g2, g3⟩ := (h3 e).mp he
    have hm : e.id ∈ es.map Collected.id := List.mem_map_of_mem g1
    exact ⟨(collected_iff h _).mp (hes ▸ hm), ⟨e, g1, rfl, g2⟩, (key _ hm).mp g3⟩
  · rintro ⟨_, ⟨e, g1, rfl, g2⟩, g3⟩
    exact List.mem_map_of_mem ((h3 e).mpr ⟨g1, g2, (key _ (List.mem_map_of_mem g1)).mpr g3⟩)

/-- **C165** for entities that name an authority: each one that is returned, and is not itself the anchor, has a trust chain to the anchor. Missing: entities that name no
authority, for which it is false (below). -/
theorem C165_chain_partial (E : Env) (pos : ID → CallPos) (R : DResolver) (anchor : ID) (fs : List EFilter)
    (pass : EFilter → Collected → Bool) (es : List Collected) (hR : AsksLocally E pos R anchor es)
    (hf : ∀ f ∈ fs, ∀ e ∈ es, f (some e) = .ok (pass f e)) (res : List (Option Collected)) (hres : verifiedCollect R anchor fs (es.map some) = .ok res)
    (e : Collected) (he : some e ∈ res) (hh : ∀ s0, (E.world (pos e.id)).start e.id = some s0 → s0.iss ≠ anchor ∧ s0.hints ≠ []) :
    HasTrustChain (E.world (pos e.id)) [anchor] e.id := by
  obtain ⟨res', h1, -, h3⟩ := C48_verified_chains E pos R anchor fs es pass (asks_ends hR) hR hf
  rw [h1] at hres
  cases hres
  obtain ⟨e', he', heq⟩ := List.mem_map.mp he
  cases heq
  obtain ⟨-, -, cs, c, hc, hcm⟩ := (h3 e).mp he'
  have hp : Produces (E.world (pos e.id)) ⟨[⟨anchor, none⟩], e.id, []⟩ c := ⟨_, cs, .inr hc, hcm⟩
  rcases C02_every_chain_anchored_partial _ _ _ hp with ⟨hl, -, hs⟩ | ⟨s0, g1, -, ⟨a, ha, g2⟩ | g2⟩
  · have hlink := C01_chains_linked _ _ _ hp hl
    obtain ⟨s0, steps, g1, _, st, _, rfl⟩ := produces_path hp hl
    exact ⟨s0, _, g1, hlink, hs⟩
  · cases List.mem_singleton.mp ha
    exact absurd g2.symm (hh s0 g1).1
  · exact absurd g2 (hh s0 g1).2

/-- A resolver that finds a chain for every entity. -/
def Ex.allFound : DResolver := ⟨fun _ _ => .ok true, fun _ _ => .ok none⟩

/-- The leaf of the example federation, and the anchor itself. -/
def Ex.foundLeaf : List Collected := [⟨"l", ["openid_relying_party"], none⟩, ⟨"t", ["federation_entity"], none⟩]

/-- With the example federation, the leaf is returned; it has two authorities. -/
example : AsksLocally Ex.E (fun _ => []) Ex.allFound "t" Ex.foundLeaf ∧
    verifiedCollect Ex.allFound "t" [] (Ex.foundLeaf.map some) = .ok (Ex.foundLeaf.map some) ∧
    ∀ s0, (Ex.E.world []).start "l" = some s0 → s0.iss ≠ "t" ∧ s0.hints ≠ [] := by
  refine ⟨?_, rfl, ?_⟩
  · intro e he
    simp only [Ex.foundLeaf, List.mem_cons, List.not_mem_nil, or_false] at he
    rcases he with rfl | rfl <;> exact ⟨true, rfl, rfl⟩
  · intro s0 h
    cases h
    decide

/-- A federation in which all entities answer with configurations that name no authority, and no signature verifies. -/
def Ex.EUnsigned : Env := { Ex.E with world := fun _ => { Ex.W with start := Ex.cenv2.ec, sig := fun _ _ => false } }

/-- **C165 fails**: an entity that names no authority is returned by the collector of entities with verified chains although there is no trust chain for it, no statement about
it was obtained and no signature was verified. -/
theorem C165_chain_refuted : ¬ ∀ (CE : CollectEnv) (q : CollectReq) (out : List ID) (E : Env) (pos : ID → CallPos) (R : DResolver) (es : List Collected)
    (res : List (Option Collected)), Collects CE q out → es.map Collected.id = out → AsksLocally E pos R q.anchor es →
    verifiedCollect R q.anchor [] (es.map some) = .ok res → ∀ e, some e ∈ res → e.id = q.anchor ∨ HasTrustChain (E.world (pos e.id)) [q.anchor] e.id := by
  intro h
  have hc : Collects Ex.cenv2 (Ex.creq "t") ["b", "d", "t"] := ⟨_, _, _, idle_new _, Ex.cfinal_run, rfl, rfl, rfl⟩
  have := h Ex.cenv2 (Ex.creq "t") _ Ex.EUnsigned (fun _ => []) Ex.allFound [⟨"b", [], none⟩, ⟨"d", [], none⟩, ⟨"t", [], none⟩] _ hc rfl ?_ rfl ⟨"d", [], none⟩
    (by simp)
  · rcases this with h | ⟨s0, rest, _, _, hs⟩
    · revert h; decide
    · obtain ⟨keys, ks, r, _, _, _, h4⟩ := hs s0 List.mem_cons_self
      revert h4
      simp [Ex.EUnsigned]
  · intro e he
    simp only [List.mem_cons, List.not_mem_nil, or_false] at he
    rcases he with rfl | rfl | rfl <;> exact ⟨true, rfl, rfl⟩

end Oidfed
