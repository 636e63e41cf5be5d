import Verif.Spec.Loosen
import Verif.Lemmas.ChainsExact
import Verif.Examples.Federation
/-!
# C152: constraints only remove chains
-/

namespace Oidfed
open Spec

/-- what is fetched in `W'` for the `k`-th step -/
def loosenStep (W' : World) (steps : List Step) (k : Nat) (s : Step) : Step :=
  { s with sub := (W'.fetch (posAt steps (k+1)) s.ec.fetchEndpoint s.sub.sub s.ec.iss).getD s.sub }

theorem noConstraints_fields {s s' : Stmt} (h : noConstraints s' = noConstraints s) :
    s'.iss = s.iss ∧ s'.sub = s.sub ∧ s'.iat = s.iat ∧ s'.exp = s.exp ∧ s'.jwks = s.jwks ∧ s'.raw = s.raw :=
  ⟨show (noConstraints s').iss = _ by rw [h]; rfl, show (noConstraints s').sub = _ by rw [h]; rfl,
    show (noConstraints s').iat = _ by rw [h]; rfl, show (noConstraints s').exp = _ by rw [h]; rfl,
    show (noConstraints s').jwks = _ by rw [h]; rfl, show (noConstraints s').raw = _ by rw [h]; rfl⟩

theorem constraintsOk_looser {host k ids types} {s s' : Stmt} (h : LooserStmt s s') (hok : ConstraintsOk host k ids types s) :
    ConstraintsOk host k ids types s' := by
  intro c' hc'
  obtain ⟨c, hc, hl⟩ := h.2 c' hc'
  obtain ⟨h1, h2, h3⟩ := hok c hc
  refine ⟨?_, ?_, ?_⟩
  · intro n' hn'
    obtain ⟨n, hn, hle⟩ := hl.path n' hn'
    have := h1 n hn
    omega
  · intro id hid n' hn'
    refine ⟨?_, ?_⟩
    · intro x hx
      obtain ⟨n, hn, hxn⟩ := hl.excluded n' hn' x hx
      exact (h2 id hid n hn).1 x hxn
    · intro ps' hps'
      obtain ⟨n, ps, hn, hps, hsub⟩ := hl.permitted n' ps' hn' hps'
      obtain ⟨x, hx, hm⟩ := (h2 id hid n hn).2 ps hps
      exact ⟨x, hsub x hx, hm⟩
  · intro ty hty ts' hts'
    obtain ⟨ts, hts, hsub⟩ := hl.types ts' hts'
    exact (h3 ty hty ts hts).imp (hsub ty) id

/-- the same path in `W'` -/
theorem loosen_path {W W' : World} (hW : Loosened W W') {A : List Anchor} {leaf : Stmt} {steps : List Step} (hv : ValidPath W A leaf steps) :
    ValidPath W' A leaf (steps.mapIdx (loosenStep W' steps)) ∧
    (steps.mapIdx (loosenStep W' steps)).map (fun s => noConstraints s.sub) = steps.map (fun s => noConstraints s.sub) := by
  have hget : ∀ k s', (steps.mapIdx (loosenStep W' steps))[k]? = some s' ↔ ∃ s, steps[k]? = some s ∧ s' = loosenStep W' steps k s := by
    intro k s'
    rw [List.getElem?_mapIdx, Option.map_eq_some_iff]
    exact exists_congr fun s => and_congr_right fun _ => eq_comm
  have hec : (steps.mapIdx (loosenStep W' steps)).map Step.ec = steps.map Step.ec := by
    apply List.ext_getElem?
    intro k
    simp only [List.getElem?_map, List.getElem?_mapIdx, Option.map_map]
    rfl
  have hhint : (steps.mapIdx (loosenStep W' steps)).map Step.hint = steps.map Step.hint := by
    apply List.ext_getElem?
    intro k
    simp only [List.getElem?_map, List.getElem?_mapIdx, Option.map_map]
    rfl
  have hpos : ∀ k, posAt (steps.mapIdx (loosenStep W' steps)) k = posAt steps k := by
    intro k; unfold posAt; rw [List.map_take, List.map_take, hhint]
  have hids : ∀ k, idsBelow leaf (steps.mapIdx (loosenStep W' steps)) k = idsBelow leaf steps k := by
    intro k; unfold idsBelow
    rw [show (fun s : Step => s.ec.iss) = Stmt.iss ∘ Step.ec from rfl, List.map_take, List.map_take, ← List.map_map, ← List.map_map, hec]
  have htys : ∀ k, typesBelow leaf (steps.mapIdx (loosenStep W' steps)) k = typesBelow leaf steps k := by
    intro k; unfold typesBelow
    rw [show (fun s : Step => s.ec.entityTypes) = Stmt.entityTypes ∘ Step.ec from rfl, List.map_take, List.map_take, ← List.map_map,
      ← List.map_map, hec]
  have hent : entities leaf (steps.mapIdx (loosenStep W' steps)) = entities leaf steps := by unfold entities; rw [hec]
  have hstep : ∀ k s, steps[k]? = some s →
      W'.fetch (posAt steps (k+1)) s.ec.fetchEndpoint s.sub.sub s.ec.iss = some (loosenStep W' steps k s).sub ∧
      LooserStmt s.sub (loosenStep W' steps k s).sub := by
    intro k s hs
    obtain ⟨e, ok, _⟩ := step_ok hv k s hs
    obtain ⟨s', h1, h2⟩ := hW.fetch _ _ _ _ _ ok.fetched
    rw [← ok.sub_sub] at h1
    have : (loosenStep W' steps k s).sub = s' := by unfold loosenStep; rw [h1]; rfl
    rw [this]
    exact ⟨h1, h2⟩
  have hsig : ∀ keys s s', LooserStmt s s' → Signed W.sig keys s → Signed W.sig keys s' := by
    rintro keys s s' hl ⟨ks, r, h1, h2, h3, h4⟩
    exact ⟨ks, r, h1, h2, by rw [(noConstraints_fields hl.1).2.2.2.2.2]; exact h3, h4⟩
  refine ⟨⟨?_, ?_, ?_, ?_⟩, ?_⟩
  · intro k e s' he hs'
    rw [hent] at he
    obtain ⟨s, hs, rfl⟩ := (hget k s').mp hs'
    have ok := hv.steps_ok k e s he hs
    obtain ⟨hf, hl⟩ := hstep k s hs
    obtain ⟨f1, f2, f3, f4, f5, f6⟩ := noConstraints_fields hl.1
    exact {
      below_not_anchor := ok.below_not_anchor
      hinted := ok.hinted
      not_visited := by rw [hids]; exact ok.not_visited
      served := by rw [hpos, hW.ec]; exact ok.served
      self_issued := ok.self_issued
      ec_time := by rw [hpos, hW.nowEC]; exact ok.ec_time
      has_fetch := ok.has_fetch
      fetched := by rw [hpos, ← ok.sub_sub]; exact hf
      sub_iss := by rw [f1]; exact ok.sub_iss
      sub_sub := by rw [f2]; exact ok.sub_sub
      sub_time := by
        rw [hpos, hW.nowSub]
        unfold InWindow
        rw [f3, f4]
        exact ok.sub_time
      constraints := by rw [hids, htys, hW.host]; exact constraintsOk_looser hl ok.constraints }
  · intro s' hs'
    obtain ⟨s, hs, rfl⟩ := (hget 0 s').mp hs'
    rw [hW.sig, (noConstraints_fields (hstep 0 s hs).2.1).2.2.2.2.1]
    exact hv.leaf_signed s hs
  · intro k s' n' hs' hn'
    obtain ⟨s, hs, rfl⟩ := (hget k s').mp hs'
    obtain ⟨n, hn, rfl⟩ := (hget (k+1) n').mp hn'
    rw [hW.sig, (noConstraints_fields (hstep _ n hn).2.1).2.2.2.2.1]
    obtain ⟨h1, h2⟩ := hv.mid_signed k s n hs hn
    exact ⟨h1, hsig _ _ _ (hstep k s hs).2 h2⟩
  · obtain ⟨s, ta, keys, h1, h2, h3, h4, h5⟩ := hv.top
    rw [List.getLast?_eq_getElem?] at h1
    refine ⟨loosenStep W' steps (steps.length - 1) s, ta, keys, ?_, h2, h3, ?_, ?_⟩
    · rw [List.getLast?_eq_getElem?, List.length_mapIdx]
      exact (hget _ _).mpr ⟨s, h1, rfl⟩
    · rw [hW.sig]; exact h4
    · rw [hW.sig]; exact hsig _ _ _ (hstep _ s h1).2 h5
  · apply List.ext_getElem?
    intro k
    simp only [List.getElem?_map, List.getElem?_mapIdx, Option.map_map]
    cases hs : steps[k]? with
    | none => rfl
    | some s =>
      simp only [Option.map_some, Function.comp]
      rw [(hstep k s hs).2.1]

/-- C152: if the constraints that superiors impose are loosened or dropped, every chain is still returned (with the loosened
statements); so constraints never add a chain. -/
theorem C152_constraints (W W' : World) (hW : Loosened W W') (r : Resolver) (fuel fuel' : Nat) (cs cs' : List Chain)
    (h : r.chainsNoMeta W fuel = .ok (some cs)) (h' : r.chainsNoMeta W' fuel' = .ok (some cs')) (c : Chain) (hc : c ∈ cs) :
    ∃ c' ∈ cs', c'.map noConstraints = c.map noConstraints := by
  obtain ⟨hst, s0, hs0, hm, hd⟩ := (mem_run_iff h c).mp hc
  rcases hd with ⟨hd, rfl⟩ | ⟨steps, hv, hch⟩
  · exact ⟨_, (mem_run_iff h' _).mpr ⟨hst, s0, by rw [hW.start]; exact hs0, hm, .inl ⟨hd, rfl⟩⟩, rfl⟩
  · obtain ⟨hv', hmap⟩ := loosen_path hW hv
    obtain ⟨s, hs, rfl⟩ := hch
    have hl : (steps.mapIdx (loosenStep W' steps)).getLast? = some (loosenStep W' steps (steps.length - 1) s) := by
      rw [List.getLast?_eq_getElem?] at hs ⊢
      rw [List.length_mapIdx, List.getElem?_mapIdx, hs]
      rfl
    refine ⟨_, (mem_run_iff h' _).mpr ⟨hst, s0, by rw [hW.start]; exact hs0, hm, .inr ⟨_, hv', _, hl, rfl⟩⟩, ?_⟩
    simp only [List.map_cons, List.map_append, List.map_map, List.map_nil]
    rw [show noConstraints ∘ Step.sub = fun s : Step => noConstraints s.sub from rfl, hmap]
    rfl

/-- metadata resolution does not look at the constraints -/
theorem chainMetadata_noConstraints (c : Chain) : chainMetadata (c.map noConstraints) = chainMetadata c := by
  have hc : critOk (c.map noConstraints) = critOk c := by
    unfold critOk
    rw [List.all_map]
    rfl
  match c with
  | [] => rfl
  | [s] => rfl
  | s :: s' :: c =>
    simp only [List.map_cons] at hc ⊢
    unfold chainMetadata
    rw [hc]
    simp only [List.map_cons, List.map_map]
    rfl

/-- C152 for `ResolveToValidChains`; the metadata of the chain is the same. -/
theorem C152_constraints_valid (W W' : World) (hW : Loosened W W') (r : Resolver) (fuel fuel' : Nat) (cs cs' : List Chain)
    (h : r.validChains W fuel = .ok (some cs)) (h' : r.validChains W' fuel' = .ok (some cs')) (c : Chain) (hc : c ∈ cs) :
    ∃ c' ∈ cs', c'.map noConstraints = c.map noConstraints ∧ chainMetadata c' = chainMetadata c := by
  obtain ⟨cs0, h1, h2⟩ := validChains_eq h
  obtain ⟨cs1, h3, h4⟩ := validChains_eq h'
  obtain ⟨hc0, m, hm⟩ := (filterValidMetadata_mem _ _ h2 c).mp hc
  obtain ⟨c', hc', he⟩ := C152_constraints W W' hW r _ _ _ _ h1 h3 c hc0
  have hmeta : chainMetadata c' = chainMetadata c := by
    rw [← chainMetadata_noConstraints c', he, chainMetadata_noConstraints]
  exact ⟨c', (filterValidMetadata_mem _ _ h4 c').mpr ⟨hc', m, by rw [hmeta]; exact hm⟩, he, hmeta⟩

/-- the example federation in which the statements of `t` allow no intermediate, and in which they have no constraints -/
def loosenFetch (c : Option Constraints) (ep : String) (sub : ID) : Option Stmt :=
  (Ex.fetchOf ep sub).map (fun s => if s.iss = "t" then { s with constraints := c } else s)
def loosenTight : World := { Ex.W with fetch := fun _ ep sub _ => loosenFetch (some ⟨some 0, some ⟨some [".org"], ["j.org"]⟩, some []⟩) ep sub }
def loosenMiddle : World :=
  { Ex.W with fetch := fun _ ep sub _ => loosenFetch (some ⟨some 1, some ⟨some ["l.org", ".org"], ["j.org"]⟩, some ["openid_relying_party"]⟩) ep sub }
def loosenFree : World := { Ex.W with fetch := fun _ ep sub _ => loosenFetch none ep sub }

theorem loosenFetch_looser (c c' : Option Constraints) (hc : ∀ x', c' = some x' → ∃ x, c = some x ∧ LooserConstraints x x') (ep : String) (sub : ID) (s : Stmt)
    (h : loosenFetch c ep sub = some s) : ∃ s', loosenFetch c' ep sub = some s' ∧ LooserStmt s s' := by
  unfold loosenFetch at h ⊢
  cases hf : Ex.fetchOf ep sub with
  | none => rw [hf] at h; cases h
  | some s0 =>
    rw [hf] at h
    cases h
    refine ⟨_, rfl, ?_⟩
    by_cases ht : s0.iss = "t"
    · simp only [ht, if_true]
      exact ⟨rfl, hc⟩
    · simp only [ht, if_false]
      exact ⟨rfl, fun c h => ⟨c, h, ⟨fun n h => ⟨n, h, Int.le_refl _⟩, fun n h x hx => ⟨n, h, hx⟩,
        fun n ps h h' => ⟨n, ps, h, h', fun _ hx => hx⟩, fun ts h => ⟨ts, h, fun _ hx => hx⟩⟩⟩⟩

/-- with the tight constraints no chain is returned, with looser ones the chain over `i`, and without constraints both chains -/
example : Loosened loosenTight loosenMiddle ∧ Loosened loosenMiddle loosenFree ∧
    Ex.R.chainsNoMeta loosenTight 5 = .ok (some []) ∧
    (∃ c, Ex.R.chainsNoMeta loosenMiddle 5 = .ok (some [c]) ∧ c.map Stmt.iss = ["l", "i", "t", "t"]) ∧
    ∃ c c', Ex.R.chainsNoMeta loosenFree 5 = .ok (some [c, c']) ∧ c.map Stmt.iss = ["l", "i", "t", "t"] := by
  refine ⟨⟨rfl, rfl, ?_, rfl, rfl, rfl, rfl⟩, ⟨rfl, rfl, ?_, rfl, rfl, rfl, rfl⟩, rfl, ⟨_, rfl, rfl⟩, _, _, rfl, rfl⟩
  · intro p ep sub iss s h
    refine loosenFetch_looser _ _ ?_ ep sub s h
    intro x' hx'
    cases hx'
    refine ⟨_, rfl, ⟨fun n h => ?_, fun n h x hx => ?_, fun n ps h h' => ?_, fun ts h => ?_⟩⟩
    · cases h; exact ⟨0, rfl, by decide⟩
    · cases h; exact ⟨_, rfl, hx⟩
    · cases h; cases h'; exact ⟨_, _, rfl, rfl, by simp⟩
    · cases h; exact ⟨_, rfl, by simp⟩
  · intro p ep sub iss s h
    exact loosenFetch_looser _ _ (fun x' hx' => by cases hx') ep sub s h

end Oidfed
