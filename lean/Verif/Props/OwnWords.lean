import Verif.Spec.OwnWords
import Verif.Lemmas.ChainsExact
import Verif.Examples.Federation
/-!
# C163: what intermediates say about themselves
-/

namespace Oidfed
open Spec

theorem alike_refl (sig : SigOracle) (x : Stmt) : AlikeAsSuperior sig x x := ⟨rfl, rfl, rfl, rfl, rfl, rfl, rfl, fun _ => Iff.rfl⟩

theorem alike_symm {sig : SigOracle} {x y : Stmt} (h : AlikeAsSuperior sig x y) : AlikeAsSuperior sig y x :=
  ⟨h.iss.symm, h.sub.symm, h.iat.symm, h.exp.symm, h.hints.symm, h.types.symm, h.endpoint.symm, fun ks => (h.signed ks).symm⟩

/-- the `k`-th step with the configuration that `f` serves -/
def rewordStep (f : Pos → ID → Option Stmt) (steps : List Step) (k : Nat) (s : Step) : Step :=
  { s with ec := (f (posAt steps (k+1)) s.ec.iss).getD s.ec }

theorem reword_path {W : World} {A : List Anchor} {f : Pos → ID → Option Stmt} (hf : Reworded W A f) {leaf : Stmt} {steps : List Step} (hv : ValidPath W A leaf steps) {c : Chain}
    (hc : IsChainOf leaf steps c) : ∃ steps', ValidPath { W with ec := f } A leaf steps' ∧ IsChainOf leaf steps' c := by
  have hget : ∀ k s', (steps.mapIdx (rewordStep f steps))[k]? = some s' ↔ ∃ s, steps[k]? = some s ∧ s' = rewordStep f steps k s := by
    intro k s'
    rw [List.getElem?_mapIdx, Option.map_eq_some_iff]
    exact exists_congr fun s => and_congr_right fun _ => eq_comm
  have hstep : ∀ k s, steps[k]? = some s → f (posAt steps (k+1)) s.ec.iss = some (rewordStep f steps k s).ec ∧ AlikeAsSuperior W.sig s.ec (rewordStep f steps k s).ec ∧
      (s.ec.iss ∈ A.map Anchor.id → (rewordStep f steps k s).ec = s.ec) := by
    intro k s hs
    obtain ⟨e, ok, _⟩ := step_ok hv k s hs
    rcases hf (posAt steps (k+1)) s.ec.iss with h | ⟨hn, x, y, hx, hy, ha⟩
    · have e1 : (rewordStep f steps k s).ec = s.ec := by unfold rewordStep; rw [h, ok.served]; rfl
      rw [h, e1, ok.served]
      exact ⟨rfl, alike_refl _ _, fun _ => rfl⟩
    · have e1 : (rewordStep f steps k s).ec = y := by unfold rewordStep; rw [hy]; rfl
      rw [ok.served] at hx
      cases hx
      rw [e1]
      exact ⟨hy, ha, fun h => absurd h hn⟩
  have hmap : ∀ {α : Type} (g : Step → α), (∀ k s, steps[k]? = some s → g (rewordStep f steps k s) = g s) → (steps.mapIdx (rewordStep f steps)).map g = steps.map g := by
    intro α g hg
    apply List.ext_getElem?
    intro k
    simp only [List.getElem?_map, List.getElem?_mapIdx, Option.map_map]
    cases hs : steps[k]? with
    | none => rfl
    | some s => simp only [Option.map_some, Function.comp, hg k s hs]
  have hpos : ∀ k, posAt (steps.mapIdx (rewordStep f steps)) k = posAt steps k := by
    intro k; unfold posAt
    rw [List.map_take, List.map_take, hmap Step.hint (fun _ _ _ => rfl)]
  have hids : ∀ k, idsBelow leaf (steps.mapIdx (rewordStep f steps)) k = idsBelow leaf steps k := by
    intro k; unfold idsBelow
    rw [List.map_take, List.map_take, hmap (fun s => s.ec.iss) (fun k s hs => (hstep k s hs).2.1.iss)]
  have htys : ∀ k, typesBelow leaf (steps.mapIdx (rewordStep f steps)) k = typesBelow leaf steps k := by
    intro k; unfold typesBelow
    rw [List.map_take, List.map_take, hmap (fun s => s.ec.entityTypes) (fun k s hs => (hstep k s hs).2.1.types)]
  have hent : ∀ (k : Nat) (e' : Stmt), (entities leaf (steps.mapIdx (rewordStep f steps)))[k]? = some e' → ∃ e : Stmt, (entities leaf steps)[k]? = some e ∧ e'.iss = e.iss ∧ e'.hints = e.hints := by
    intro k e' he
    unfold entities at he ⊢
    cases k with
    | zero => cases he; exact ⟨leaf, rfl, rfl, rfl⟩
    | succ k =>
      rw [List.getElem?_cons_succ, List.getElem?_map, Option.map_eq_some_iff] at he
      obtain ⟨s', hs', rfl⟩ := he
      obtain ⟨s, hs, rfl⟩ := (hget k s').mp hs'
      exact ⟨s.ec, by rw [List.getElem?_cons_succ, List.getElem?_map, hs]; rfl, (hstep k s hs).2.1.iss, (hstep k s hs).2.1.hints⟩
  refine ⟨steps.mapIdx (rewordStep f steps), ⟨?_, ?_, ?_, ?_⟩, ?_⟩
  · intro k e' s' he' hs'
    obtain ⟨e, he, hi, hh⟩ := hent k e' he'
    obtain ⟨s, hs, rfl⟩ := (hget k s').mp hs'
    have ok := hv.steps_ok k e s he hs
    obtain ⟨hserved, ha, _⟩ := hstep k s hs
    exact {
      below_not_anchor := by rw [hi]; exact ok.below_not_anchor
      hinted := by rw [hh, ha.iss]; exact ok.hinted
      not_visited := by rw [hids, ha.iss]; exact ok.not_visited
      served := by rw [hpos, ha.iss]; exact hserved
      self_issued := by rw [ha.iss, ha.sub]; exact ok.self_issued
      ec_time := by
        rw [hpos]
        unfold InWindow
        rw [ha.iat, ha.exp]
        exact ok.ec_time
      has_fetch := by rw [ha.endpoint]; exact ok.has_fetch
      fetched := by rw [hpos, ha.endpoint, ha.iss, hi]; exact ok.fetched
      sub_iss := by rw [ha.iss]; exact ok.sub_iss
      sub_sub := by rw [hi]; exact ok.sub_sub
      sub_time := by rw [hpos]; exact ok.sub_time
      constraints := by rw [hids, htys]; exact ok.constraints }
  · intro s' hs'
    obtain ⟨s, hs, rfl⟩ := (hget 0 s').mp hs'
    exact hv.leaf_signed s hs
  · intro k s' n' hs' hn'
    obtain ⟨s, hs, rfl⟩ := (hget k s').mp hs'
    obtain ⟨n, hn, rfl⟩ := (hget (k+1) n').mp hn'
    obtain ⟨h1, h2⟩ := hv.mid_signed k s n hs hn
    exact ⟨((hstep k s hs).2.1.signed _).mp h1, h2⟩
  · obtain ⟨s, ta, keys, h1, h2, h3, h4, h5⟩ := hv.top
    rw [List.getLast?_eq_getElem?] at h1
    have he : (rewordStep f steps (steps.length - 1) s).ec = s.ec := by
      refine (hstep _ s h1).2.2 ?_
      obtain ⟨pre, post, rfl, h6, _⟩ := h2
      rw [← h6]
      exact List.mem_map_of_mem (by simp)
    refine ⟨rewordStep f steps (steps.length - 1) s, ta, keys, ?_, by rw [he]; exact h2, by rw [he]; exact h3, by rw [he]; exact h4, h5⟩
    rw [List.getLast?_eq_getElem?, List.length_mapIdx]
    exact (hget _ _).mpr ⟨s, h1, rfl⟩
  · obtain ⟨s, h1, rfl⟩ := hc
    obtain ⟨s2, ta, _, h1', h2, _⟩ := hv.top
    rw [h1] at h1'
    cases h1'
    rw [List.getLast?_eq_getElem?] at h1
    have he : (rewordStep f steps (steps.length - 1) s).ec = s.ec := by
      refine (hstep _ s h1).2.2 ?_
      obtain ⟨pre, post, rfl, h6, _⟩ := h2
      rw [← h6]
      exact List.mem_map_of_mem (by simp)
    refine ⟨rewordStep f steps (steps.length - 1) s, ?_, ?_⟩
    · rw [List.getLast?_eq_getElem?, List.length_mapIdx]
      exact (hget _ _).mpr ⟨s, h1, rfl⟩
    · rw [he, hmap Step.sub (fun _ _ _ => rfl)]

/-- **C163**: whatever intermediates put into their own configurations about keys, policies, constraints or other metadata, the chains are the same. -/
theorem C163_own_words (W : World) (r : Resolver) (f : Pos → ID → Option Stmt) (hf : Reworded W r.anchors f) (fuel fuel' : Nat) (cs cs' : List Chain)
    (h : r.chainsNoMeta W fuel = .ok (some cs)) (h' : r.chainsNoMeta { W with ec := f } fuel' = .ok (some cs')) (c : Chain) : c ∈ cs ↔ c ∈ cs' := by
  have hf' : Reworded { W with ec := f } r.anchors W.ec := by
    intro p id
    rcases hf p id with h | ⟨hn, x, y, hx, hy, ha⟩
    · exact .inl h.symm
    · exact .inr ⟨hn, y, x, hy, hx, alike_symm ha⟩
  rw [mem_run_iff h, mem_run_iff h']
  refine and_congr_right fun _ => exists_congr fun s0 => and_congr_right fun _ => and_congr_right fun _ => or_congr_right ?_
  constructor
  · rintro ⟨steps, hv, hc⟩
    exact reword_path hf hv hc
  · rintro ⟨steps, hv, hc⟩
    exact reword_path hf' hv hc

/-- **C163** for the chains whose metadata can be resolved; the metadata is a function of the chain. -/
theorem C163_valid (W : World) (r : Resolver) (f : Pos → ID → Option Stmt) (hf : Reworded W r.anchors f) (fuel fuel' : Nat) (cs cs' : List Chain)
    (h : r.validChains W fuel = .ok (some cs)) (h' : r.validChains { W with ec := f } fuel' = .ok (some cs')) (c : Chain) : c ∈ cs ↔ c ∈ cs' := by
  obtain ⟨c0, h0, hm⟩ := validChains_eq h
  obtain ⟨c0', h0', hm'⟩ := validChains_eq h'
  rw [filterValidMetadata_mem _ _ hm, filterValidMetadata_mem _ _ hm', C163_own_words W r f hf fuel fuel' c0 c0' h0 h0']

/-- In the example federation `i` could have stated other keys and that it allows no intermediates and no entity types: the chain through it is found nevertheless. -/
example : ∃ f x, Reworded Ex.W Ex.R.anchors f ∧ f [] "i" = some x ∧ x.jwks = none ∧ x.constraints ≠ none ∧ (∃ y, Ex.W.ec [] "i" = some y ∧ y.jwks ≠ none ∧ y.constraints = none) ∧
    Ex.R.chainsNoMeta Ex.W 5 = .ok (some [Ex.chainI, Ex.chainJ]) ∧ Ex.R.chainsNoMeta { Ex.W with ec := f } 5 = .ok (some [Ex.chainI, Ex.chainJ]) := by
  refine ⟨fun _ id => if id = "i" then (Ex.ecOf "i").map (fun s => { s with jwks := none, constraints := some ⟨some 0, none, some []⟩ }) else Ex.ecOf id, _, ?_, rfl, rfl,
    (by intro h; cases h), ⟨_, rfl, (by intro h; cases h), rfl⟩, rfl, rfl⟩
  intro p id
  by_cases h : id = "i"
  · subst h
    exact .inr ⟨by decide, _, _, rfl, rfl, ⟨rfl, rfl, rfl, rfl, rfl, rfl, rfl, fun _ => Iff.rfl⟩⟩
  · exact .inl (if_neg h)

end Oidfed
