import Verif.Spec.Compose
import Verif.Lemmas.ChainsExact
import Verif.Examples.Federation
/-!
# C154: the chains of an entity and those of its superiors
-/

namespace Oidfed
open Spec

theorem stepOk_tail {W : World} (hW : Steady W) {A : List Anchor} {leaf : Stmt} {s0 : Step} {tail : List Step} (hs0 : s0.ec.sub = s0.ec.iss) {k : Nat} {e : Stmt} {s : Step}
    (ok : StepOk W A leaf (s0 :: tail) (k+1) e s) : StepOk W A s0.ec tail k e s where
  below_not_anchor := ok.below_not_anchor
  hinted := ok.hinted
  not_visited := by
    intro hm
    refine ok.not_visited ?_
    simp only [idsBelow, List.take_succ_cons, List.map_cons]
    rw [idsBelow, hs0] at hm
    exact List.mem_cons_of_mem _ hm
  served := by rw [hW.ec, ← hW.ec]; exact ok.served
  self_issued := ok.self_issued
  ec_time := by rw [hW.nowEC, ← hW.nowEC]; exact ok.ec_time
  has_fetch := ok.has_fetch
  fetched := by rw [hW.fetch, ← hW.fetch]; exact ok.fetched
  sub_iss := ok.sub_iss
  sub_sub := ok.sub_sub
  sub_time := by rw [hW.nowSub, ← hW.nowSub]; exact ok.sub_time
  constraints := by
    intro c hc
    obtain ⟨h1, h2, h3⟩ := ok.constraints c hc
    refine ⟨fun n hn => ?_, fun id hid => h2 id ?_, fun ty hty => h3 ty ?_⟩
    · have := h1 n hn
      omega
    · simp only [idsBelow, List.take_succ_cons, List.map_cons]
      rw [idsBelow, hs0] at hid
      exact List.mem_cons_of_mem _ hid
    · simp only [typesBelow, List.take_succ_cons, List.map_cons, List.flatten_cons]
      exact List.mem_append_right _ hty

theorem stepOk_cons {W : World} (hW : Steady W) {A : List Anchor} {leaf : Stmt} {s0 : Step} {tail : List Step} (hs0 : s0.ec.sub = s0.ec.iss) {k : Nat} {e : Stmt} {s : Step}
    (ok : StepOk W A s0.ec tail k e s) (hnew : s.ec.iss ≠ leaf.sub) (hc : ConstraintsOk W.host (k+1) [leaf.sub] leaf.entityTypes s.sub) :
    StepOk W A leaf (s0 :: tail) (k+1) e s where
  below_not_anchor := ok.below_not_anchor
  hinted := ok.hinted
  not_visited := by
    intro hm
    simp only [idsBelow, List.take_succ_cons, List.map_cons] at hm
    rcases List.mem_cons.mp hm with h | h
    · exact hnew h
    · exact ok.not_visited (by rw [idsBelow, hs0]; exact h)
  served := by rw [hW.ec, ← hW.ec]; exact ok.served
  self_issued := ok.self_issued
  ec_time := by rw [hW.nowEC, ← hW.nowEC]; exact ok.ec_time
  has_fetch := ok.has_fetch
  fetched := by rw [hW.fetch, ← hW.fetch]; exact ok.fetched
  sub_iss := ok.sub_iss
  sub_sub := ok.sub_sub
  sub_time := by rw [hW.nowSub, ← hW.nowSub]; exact ok.sub_time
  constraints := by
    intro c hcc
    obtain ⟨_, h2, h3⟩ := ok.constraints c hcc
    obtain ⟨g1, g2, g3⟩ := hc c hcc
    refine ⟨g1, fun id hid => ?_, fun ty hty => ?_⟩
    · simp only [idsBelow, List.take_succ_cons, List.map_cons] at hid
      rcases List.mem_cons.mp hid with h | h
      · exact g2 id (by rw [h]; exact List.mem_singleton_self _)
      · exact h2 id (by rw [idsBelow, hs0]; exact h)
    · simp only [typesBelow, List.take_succ_cons, List.map_cons, List.flatten_cons] at hty
      rcases List.mem_append.mp hty with h | h
      · exact g3 ty h
      · exact h3 ty h

theorem fetchEndpoint_metadata {s : Stmt} (h : s.fetchEndpoint ≠ "") : s.metadata ≠ none := by
  intro hm
  simp [Stmt.fetchEndpoint, hm] at h

/-- the statements of a path above the authority of its first step -/
theorem chain_tail {leaf : Stmt} {steps : List Step} {s : Stmt} {up : Chain} (h : IsChainOf leaf steps (leaf :: s :: up)) (hlen : 2 ≤ up.length) :
    ∃ s0 s1 tail, steps = s0 :: s1 :: tail ∧ s0.sub = s ∧ IsChainOf s0.ec (s1 :: tail) (s0.ec :: up) := by
  obtain ⟨t, ht, hc⟩ := h
  cases steps with
  | nil => cases ht
  | cons s0 steps =>
    cases steps with
    | nil =>
      simp only [List.map_cons, List.map_nil, List.cons_append, List.nil_append, List.cons.injEq, true_and] at hc
      rw [hc.2] at hlen
      simp at hlen
    | cons s1 tail =>
      simp only [List.map_cons, List.cons_append, List.cons.injEq, true_and] at hc
      exact ⟨s0, s1, tail, rfl, hc.1.symm, t, by rw [← ht]; simp, by rw [hc.2]; rfl⟩

theorem path_tail {W : World} (hW : Steady W) {A : List Anchor} {leaf : Stmt} {s0 s1 : Step} {tail : List Step} (hv : ValidPath W A leaf (s0 :: s1 :: tail)) :
    ValidPath W A s0.ec (s1 :: tail) := by
  have h0 := hv.steps_ok 0 leaf s0 rfl rfl
  refine ⟨?_, ?_, ?_, ?_⟩
  · intro k e s he hs
    exact stepOk_tail hW h0.self_issued (hv.steps_ok (k+1) e s he hs)
  · intro s hs
    exact (hv.mid_signed 0 s0 s rfl hs).1
  · intro k s next hs hn
    exact hv.mid_signed (k+1) s next hs hn
  · obtain ⟨s, ta, keys, h1, h2⟩ := hv.top
    exact ⟨s, ta, keys, by rw [← h1]; simp, h2⟩

/-- the subjects of the statements of a path are the entities below their issuers -/
theorem subjects_visited {W : World} {A : List Anchor} {leaf : Stmt} {s0 s1 : Step} {tail : List Step} {up : Chain} (hv : ValidPath W A leaf (s0 :: s1 :: tail))
    (hc : IsChainOf s0.ec (s1 :: tail) (s0.ec :: up)) : ∀ t ∈ s0.ec :: up, ∃ s ∈ s0 :: s1 :: tail, t.sub = s.ec.iss := by
  have h0 := hv.steps_ok 0 leaf s0 rfl rfl
  intro t ht
  rcases List.mem_cons.mp ht with rfl | ht
  · exact ⟨s0, List.mem_cons_self, h0.self_issued⟩
  obtain ⟨last, hl, hc⟩ := hc
  rw [(List.cons.inj hc).2] at ht
  rcases List.mem_append.mp ht with ht | ht
  · obtain ⟨s, hs, rfl⟩ := List.mem_map.mp ht
    obtain ⟨k, hk⟩ := List.mem_iff_getElem?.mp hs
    have hk' : (s0 :: s1 :: tail)[k+1]? = some s := hk
    obtain ⟨e, ok, he⟩ := step_ok hv (k+1) s hk'
    obtain ⟨s', hs', rfl⟩ := he.2 k rfl
    exact ⟨s', List.mem_of_getElem? hs', ok.sub_sub⟩
  · rw [List.mem_singleton.mp ht]
    have hm : last ∈ s0 :: s1 :: tail := List.mem_cons_of_mem _ (List.mem_of_getLast? hl)
    obtain ⟨k, hk⟩ := List.mem_iff_getElem?.mp hm
    obtain ⟨e, ok, he⟩ := step_ok hv k last hk
    exact ⟨last, hm, ok.self_issued⟩

theorem entity_new {W : World} {A : List Anchor} {leaf : Stmt} {steps : List Step} (hv : ValidPath W A leaf steps) : ∀ s ∈ steps, s.ec.iss ≠ leaf.sub := by
  intro s hs h
  obtain ⟨k, hk⟩ := List.mem_iff_getElem?.mp hs
  obtain ⟨e, ok, he⟩ := step_ok hv k s hk
  exact ok.not_visited (by rw [h]; exact List.mem_cons_self)

/-- C154: an entity has a chain through an authority that is not an anchor exactly if the authority itself has the upper part of the chain, and the entity is a
subordinate of the authority and allowed by all the constraints above. -/
theorem C154_composition (W : World) (hW : Steady W) (A : List Anchor) (l i : ID) (hl : l ≠ "") (hi : i ≠ "") (fuel fuel' : Nat) (cs cs' : List Chain)
    (h : (⟨A, l, []⟩ : Resolver).chainsNoMeta W fuel = .ok (some cs)) (h' : (⟨A, i, []⟩ : Resolver).chainsNoMeta W fuel' = .ok (some cs'))
    (leaf s : Stmt) (up : Chain) (hs : s.iss = i) (hlen : 2 ≤ up.length) :
    leaf :: s :: up ∈ cs ↔ ∃ auth, auth :: up ∈ cs' ∧ Enrolled W A l leaf auth s up := by
  constructor
  · intro hc
    obtain ⟨_, s0, hs0, hm, hd⟩ := (mem_run_iff h _).mp hc
    rcases hd with ⟨_, h1⟩ | ⟨steps, hv, hch⟩
    · cases h1
    · have he : leaf = s0 := by
        obtain ⟨_, _, h1⟩ := hch
        exact (List.cons.inj h1).1
      subst he
      have hv : ValidPath W A leaf steps := hv
      have hch : IsChainOf leaf steps (leaf :: s :: up) := hch
      obtain ⟨a, b, tail, rfl, rfl, hct⟩ := chain_tail hch hlen
      have h0 := hv.steps_ok 0 leaf a rfl rfl
      have hat : W.start i = some a.ec := by
        have := h0.served
        rw [hW.ec, ← h0.sub_iss, hs] at this
        exact this
      have hup : up = (b :: tail).map Step.sub ++ [((b :: tail).getLast (by simp)).ec] := by
        obtain ⟨last, hlast, e⟩ := hct
        rw [List.getLast?_eq_some_getLast (by simp)] at hlast
        rw [(List.cons.inj e).2, ← Option.some.inj hlast]
      refine ⟨a.ec, (mem_run_iff h' _).mpr ⟨hi, a.ec, hat, ?_, .inr ⟨b :: tail, path_tail hW hv, hct⟩⟩, ?_⟩
      · exact Option.isSome_iff_ne_none.mpr (fetchEndpoint_metadata h0.has_fetch)
      · exact {
          served := hs0
          metadata := Option.isSome_iff_ne_none.mp hm
          not_anchor := h0.below_not_anchor
          hinted := List.mem_of_getElem? h0.hinted
          auth_self := h0.self_issued
          auth_time := by rw [← hW.nowEC]; exact h0.ec_time
          auth_fetch := h0.has_fetch
          fetched := by rw [← hW.fetch]; exact h0.fetched
          s_iss := h0.sub_iss
          s_sub := h0.sub_sub
          s_time := by rw [← hW.nowSub]; exact h0.sub_time
          leaf_signed := hv.leaf_signed a rfl
          s_signed := by
            intro t ht
            rw [hup] at ht
            cases ht
            exact (hv.mid_signed 0 a b rfl rfl).2
          new := by
            intro t ht h1
            obtain ⟨x, hx, he⟩ := subjects_visited hv hct t ht
            exact entity_new hv x hx (by rw [← he]; exact h1)
          allowed := by
            have := h0.constraints
            rwa [show typesBelow leaf (a :: b :: tail) 0 = leaf.entityTypes from List.append_nil _] at this
          allowed_above := by
            intro k t ht
            rw [hup, List.dropLast_concat, List.getElem?_map] at ht
            obtain ⟨x, hx, rfl⟩ := Option.map_eq_some_iff.mp ht
            obtain ⟨e, ok, _⟩ := step_ok hv (k+1) x hx
            intro c hcc
            obtain ⟨g1, g2, g3⟩ := ok.constraints c hcc
            refine ⟨g1, fun id hid => g2 id ?_, fun ty hty => g3 ty (List.mem_append_left _ hty)⟩
            rw [List.mem_singleton.mp hid]
            exact List.mem_cons_self }
  · rintro ⟨auth, hc, en⟩
    obtain ⟨_, a0, ha0, hm, hd⟩ := (mem_run_iff h' _).mp hc
    rcases hd with ⟨_, h1⟩ | ⟨steps, hv, hch⟩
    · rw [(List.cons.inj h1).2] at hlen
      simp at hlen
    · have he : auth = a0 := by
        obtain ⟨_, _, h1⟩ := hch
        exact (List.cons.inj h1).1
      subst he
      have hv : ValidPath W A auth steps := hv
      have hch : IsChainOf auth steps (auth :: up) := hch
      obtain ⟨last, hlast, hup⟩ := hch
      have hup := (List.cons.inj hup).2
      cases steps with
      | nil => cases hlast
      | cons b tail =>
        obtain ⟨k, hk⟩ := List.mem_iff_getElem?.mp en.hinted
        let a : Step := ⟨k, auth, s⟩
        refine (mem_run_iff h _).mpr ⟨hl, leaf, en.served, Option.isSome_iff_ne_none.mpr en.metadata,
          .inr ⟨a :: b :: tail, ⟨?_, ?_, ?_, ?_⟩, last, by rw [← hlast]; simp, ?_⟩⟩
        · intro j e x he hx
          cases j with
          | zero =>
            cases he
            cases hx
            exact {
              below_not_anchor := en.not_anchor
              hinted := hk
              not_visited := by
                intro hm
                have := List.mem_singleton.mp (show auth.iss ∈ [leaf.sub] from hm)
                exact en.new auth List.mem_cons_self (by rw [en.auth_self]; exact this)
              served := by
                rw [hW.ec]
                show W.start auth.iss = some auth
                rw [← en.s_iss, hs]
                exact ha0
              self_issued := en.auth_self
              ec_time := by rw [hW.nowEC]; exact en.auth_time
              has_fetch := en.auth_fetch
              fetched := by rw [hW.fetch]; exact en.fetched
              sub_iss := en.s_iss
              sub_sub := en.s_sub
              sub_time := by rw [hW.nowSub]; exact en.s_time
              constraints := by
                have := en.allowed
                intro c hcc
                obtain ⟨g1, g2, g3⟩ := this c hcc
                refine ⟨g1, g2, fun ty hty => g3 ty ?_⟩
                rcases List.mem_append.mp hty with h | h
                · exact h
                · exact absurd h List.not_mem_nil }
          | succ j =>
            have hx' : (b :: tail)[j]? = some x := hx
            refine stepOk_cons (s0 := a) hW en.auth_self (hv.steps_ok j e x he hx') ?_ ?_
            · intro hn
              cases hy : (b :: tail)[j+1]? with
              | some y =>
                obtain ⟨e', ok, he'⟩ := step_ok hv (j+1) y hy
                obtain ⟨x', hx'', rfl⟩ := he'.2 j rfl
                rw [hx'] at hx''
                cases hx''
                refine en.new y.sub (List.mem_cons_of_mem _ ?_) (by rw [ok.sub_sub]; exact hn)
                rw [hup]
                exact List.mem_append_left _ (List.mem_map_of_mem (List.mem_of_getElem? hy))
              | none =>
                have hxl : x = last := by
                  have h1 := List.getElem?_eq_none_iff.mp hy
                  obtain ⟨h2, h3⟩ := List.getElem?_eq_some_iff.mp hx'
                  rw [List.getLast?_eq_getElem?, show (b :: tail).length - 1 = j by omega, hx'] at hlast
                  exact Option.some.inj hlast
                subst hxl
                refine en.new x.ec (List.mem_cons_of_mem _ (by rw [hup]; simp)) ?_
                rw [(hv.steps_ok j e x he hx').self_issued]
                exact hn
            · refine en.allowed_above j x.sub ?_
              rw [hup, List.dropLast_concat, List.getElem?_map, hx']
              rfl
        · intro x hx
          cases hx
          exact en.leaf_signed
        · intro j x y hx hy
          cases j with
          | zero =>
            cases hx
            cases hy
            exact ⟨hv.leaf_signed b rfl, en.s_signed _ (by rw [hup]; rfl)⟩
          | succ j => exact hv.mid_signed j x y hx hy
        · obtain ⟨x, ta, keys, h1, h2⟩ := hv.top
          exact ⟨x, ta, keys, by rw [← h1]; simp, h2⟩
        · show leaf :: s :: up = _
          rw [hup]
          rfl

/-- C154 (superiors): whoever is the issuer of a statement in a returned chain has a chain, too: the upper part of the chain, or its configuration alone if it is
the anchor. -/
theorem C154_superiors (W : World) (hW : Steady W) (A : List Anchor) (l i : ID) (hl : l ≠ "") (hi : i ≠ "") (fuel fuel' : Nat) (cs cs' : List Chain)
    (h : (⟨A, l, []⟩ : Resolver).chainsNoMeta W fuel = .ok (some cs)) (h' : (⟨A, i, []⟩ : Resolver).chainsNoMeta W fuel' = .ok (some cs'))
    (leaf s t : Stmt) (up : Chain) (hs : s.iss = i) (hc : leaf :: s :: t :: up ∈ cs) :
    ∃ auth, W.start i = some auth ∧ auth :: (if up = [] then [] else t :: up) ∈ cs' ∧ (up = [] → auth = t) := by
  by_cases hup : up = []
  · subst hup
    obtain ⟨_, s0, hs0, hm, hd⟩ := (mem_run_iff h _).mp hc
    rcases hd with ⟨_, h1⟩ | ⟨steps, hv, last, hlast, hch⟩
    · cases h1
    · have hv : ValidPath W A s0 steps := hv
      cases steps with
      | nil => cases hlast
      | cons a tail =>
        have htail : tail = [] := by
          have := congrArg List.length hch
          simp at this
          exact this
        subst htail
        cases hlast
        simp only [List.map_cons, List.map_nil, List.cons_append, List.nil_append, List.cons.injEq, and_true] at hch
        obtain ⟨rfl, rfl, rfl⟩ := hch
        have h0 := hv.steps_ok 0 _ a rfl rfl
        have hat : W.start i = some a.ec := by
          have := h0.served
          rw [hW.ec, ← h0.sub_iss, hs] at this
          exact this
        refine ⟨a.ec, hat, ?_, fun _ => rfl⟩
        rw [if_pos rfl]
        refine (mem_run_iff h' _).mpr ⟨hi, a.ec, hat, Option.isSome_iff_ne_none.mpr (fetchEndpoint_metadata h0.has_fetch), .inl ⟨.inl ?_, rfl⟩⟩
        obtain ⟨x, ta, keys, h1, ⟨pre, post, h2, h3, _⟩, _⟩ := hv.top
        cases h1
        exact List.mem_map.mpr ⟨ta, (by rw [show A = _ from h2]; simp), h3⟩
  · have hlen : 2 ≤ (t :: up).length := by
      cases up with
      | nil => exact absurd rfl hup
      | cons _ _ => simp
    obtain ⟨auth, h1, _⟩ := (C154_composition W hW A l i hl hi fuel fuel' cs cs' h h' leaf s (t :: up) hs hlen).mp hc
    obtain ⟨_, a0, ha0, _, hd⟩ := (mem_run_iff h' _).mp h1
    have he : auth = a0 := by
      rcases hd with ⟨_, h2⟩ | ⟨_, _, _, _, h2⟩
      · exact (List.cons.inj h2).1
      · exact (List.cons.inj h2).1
    exact ⟨auth, by rw [he]; exact ha0, by rw [if_neg hup]; exact h1, fun h => absurd h hup⟩

namespace ExCo

/-- The example federation, with every statement served as a steady world requires. -/
theorem steady_world : Steady Ex.W := ⟨fun _ _ => rfl, fun _ => rfl, fun _ => rfl, fun _ => rfl⟩

/-- the statement of `t` about `i` -/
def about : Stmt := { Ex.mk "t" "i" (some [2]) 3 with constraints := some Ex.cons }

end ExCo

/-- `i` has the upper part of the chain of `l` over `i`, `t` that of the chain of `i` -/
example : [Ex.iEC, ExCo.about, Ex.tEC] ∈ [[Ex.iEC, ExCo.about, Ex.tEC]] ∧ [Ex.tEC] ∈ [[Ex.tEC]] := by
  refine ⟨?_, ?_⟩
  · obtain ⟨auth, h1, h2, _⟩ := C154_superiors Ex.W ExCo.steady_world _ "l" "i" (by decide) (by decide) 5 5 _ [[Ex.iEC, ExCo.about, Ex.tEC]] Ex.run rfl Ex.leafEC
      (Ex.mk "i" "l" (some [1]) 2) ExCo.about [Ex.tEC] rfl (by simp [Ex.chainI, ExCo.about])
    cases h1
    exact h2
  · obtain ⟨auth, h1, h2, _⟩ := C154_superiors Ex.W ExCo.steady_world [⟨"t", some [3]⟩] "i" "t" (by decide) (by decide) 5 5 [[Ex.iEC, ExCo.about, Ex.tEC]] [[Ex.tEC]] rfl rfl Ex.iEC
      ExCo.about Ex.tEC [] rfl (by simp)
    cases h1
    exact h2

/-- `l` has the chain over `i`, hence `i` has its upper part, and `l` is enrolled -/
example : ∃ auth, auth :: [ExCo.about, Ex.tEC] ∈ [[Ex.iEC, ExCo.about, Ex.tEC]] ∧
    Enrolled Ex.W [⟨"t", some [3]⟩] "l" Ex.leafEC auth (Ex.mk "i" "l" (some [1]) 2) [ExCo.about, Ex.tEC] :=
  (C154_composition Ex.W ExCo.steady_world _ "l" "i" (by decide) (by decide) 5 5 _ _ Ex.run rfl _ _ _ rfl (by decide)).mp (by simp [Ex.chainI, ExCo.about])

end Oidfed
