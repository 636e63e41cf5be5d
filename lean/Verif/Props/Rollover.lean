import Verif.Spec.Rollover
import Verif.Props.MoreKeys
/-!
# C179: chains survive renewals and changes of keys
-/

namespace Oidfed
open Spec

section
variable {s' s : Stmt} (h : Rekeyed s' s)
include h
theorem Spec.Rekeyed.iss_eq : s'.iss = s.iss := by obtain ⟨_, _, _, _, rfl⟩ := h; rfl
theorem Spec.Rekeyed.sub_eq : s'.sub = s.sub := by obtain ⟨_, _, _, _, rfl⟩ := h; rfl
theorem Spec.Rekeyed.hints_eq : s'.hints = s.hints := by obtain ⟨_, _, _, _, rfl⟩ := h; rfl
theorem Spec.Rekeyed.metadata_eq : s'.metadata = s.metadata := by obtain ⟨_, _, _, _, rfl⟩ := h; rfl
theorem Spec.Rekeyed.policy_eq : s'.policy = s.policy := by obtain ⟨_, _, _, _, rfl⟩ := h; rfl
theorem Spec.Rekeyed.crit_eq : s'.policyCrit = s.policyCrit := by obtain ⟨_, _, _, _, rfl⟩ := h; rfl
theorem Spec.Rekeyed.fetch_eq : s'.fetchEndpoint = s.fetchEndpoint := by obtain ⟨_, _, _, _, rfl⟩ := h; rfl
theorem Spec.Rekeyed.types_eq : s'.entityTypes = s.entityTypes := by obtain ⟨_, _, _, _, rfl⟩ := h; rfl
theorem Spec.Rekeyed.constraintsOk {host : ID → Option String} {k : Nat} {ids : List ID} {ts : List String} (hw : ConstraintsOk host k ids ts s) : ConstraintsOk host k ids ts s' := by
  obtain ⟨_, _, _, _, rfl⟩ := h; exact hw
theorem Spec.Rekeyed.restrict (ts : List String) : Rekeyed (restrictTypes ts s') (restrictTypes ts s) := by
  unfold restrictTypes
  split
  · exact h
  · obtain ⟨a, b, j, r, e⟩ := h
    exact ⟨a, b, j, r, by rw [e]⟩
end

theorem signed_restrict {sig : SigOracle} {ts : List String} {ks : Keys} {s : Stmt} : Signed sig ks (restrictTypes ts s) ↔ Signed sig ks s := by
  unfold restrictTypes
  split
  · rfl
  · rfl

/-- A step, and the answers to the same requests in the changed federation. -/
def StepTwin (W W' : World) (x y : Step) : Prop := x.hint = y.hint ∧ (Rekeyed x.ec y.ec ∧ SamePlace W W' y.ec x.ec) ∧ Rekeyed x.sub y.sub ∧ SamePlace W W' y.sub x.sub

theorem path_twin {W' W : World} (hW : KeysChanged W' W) (hk : StillVerify W' W) {A' A : List Anchor} (hA : AnchorsStillVerify W' W A' A) {l' l : Stmt} (hl : Rekeyed l' l)
    (hpl : SamePlace W W' l l') (ts : List String) {steps : List Step} (hv : ValidPath W A (restrictTypes ts l) steps) :
    ∃ steps', Each (StepTwin W W') steps' steps ∧ ValidPath W' A' (restrictTypes ts l') steps' := by
  have hi : ∀ s : Stmt, (restrictTypes ts s).iss = s.iss := by intro s; unfold restrictTypes; split <;> rfl
  have ok : ∀ k s, steps[k]? = some s → ∃ e, (entities (restrictTypes ts l) steps)[k]? = some e ∧ StepOk W A (restrictTypes ts l) steps k e s := by
    intro k s hs
    have hk : k < (entities (restrictTypes ts l) steps).length := by
      have := (List.getElem?_eq_some_iff.mp hs).1
      simp only [entities, List.length_cons, List.length_map]
      omega
    exact ⟨_, List.getElem?_eq_getElem hk, hv.steps_ok k _ s (List.getElem?_eq_getElem hk) hs⟩
  have served : ∀ k s, steps[k]? = some s → ∃ ec' sub', W'.ec (posAt steps (k+1)) s.ec.iss = some ec' ∧ W'.fetch (posAt steps (k+1)) s.ec.fetchEndpoint s.sub.sub s.ec.iss = some sub' ∧
      (Rekeyed ec' s.ec ∧ SamePlace W W' s.ec ec') ∧ Rekeyed sub' s.sub ∧ SamePlace W W' s.sub sub' := by
    intro k s hs
    obtain ⟨e, _, h⟩ := ok k s hs
    obtain ⟨ec', h1, h2⟩ := hW.ec _ _ _ h.served
    obtain ⟨sub', h3, h4⟩ := hW.fetch _ _ _ _ _ h.fetched
    have h5 := h3
    rw [← h.sub_sub] at h3
    exact ⟨ec', sub', h1, h3, ⟨h2, .ec h.served h1⟩, h4, .fetch h.fetched h5⟩
  have rel : Each (StepTwin W W') (stepsIn W' steps) steps := by
    refine each_mapIdx _ _ fun k s hs => ?_
    obtain ⟨ec', sub', h1, h2, h3, h4⟩ := served k s hs
    rw [h1, h2]
    exact ⟨rfl, h3, h4⟩
  have pos : ∀ k, posAt (stepsIn W' steps) k = posAt steps k := fun k => each_map_eq (fun _ _ h => h.1) (each_take rel k)
  have ids : ∀ k, idsBelow (restrictTypes ts l') (stepsIn W' steps) k = idsBelow (restrictTypes ts l) steps k := by
    intro k
    unfold idsBelow
    rw [(hl.restrict ts).sub_eq, each_map_eq (R := StepTwin W W') (fun _ _ h => h.2.1.1.iss_eq) (each_take rel k)]
  have types : ∀ k, typesBelow (restrictTypes ts l') (stepsIn W' steps) k = typesBelow (restrictTypes ts l) steps k := by
    intro k
    unfold typesBelow
    rw [(hl.restrict ts).types_eq, each_map_eq (R := StepTwin W W') (fun _ _ h => h.2.1.1.types_eq) (each_take rel k)]
  have ents : Each Rekeyed (entities (restrictTypes ts l') (stepsIn W' steps)) (entities (restrictTypes ts l) steps) :=
    .cons (hl.restrict ts) (each_map (R := StepTwin W W') (fun _ _ h => h.2.1.1) rel)
  have anch : A'.map Anchor.id = A.map Anchor.id := each_map_eq (fun _ _ h => h.1) hA
  refine ⟨stepsIn W' steps, rel, ?_, ?_, ?_, ?_⟩
  · intro k e' s' he' hs'
    obtain ⟨s, hs, hrel⟩ := each_get_left rel hs'
    obtain ⟨e, he, hre⟩ := each_get_left ents he'
    have h := hv.steps_ok k e s he hs
    obtain ⟨ec', sub', h1, h2, ⟨h3, _⟩, h4, _⟩ := served k s hs
    have hs2 : s' = ⟨s.hint, ec', sub'⟩ := by
      unfold stepsIn at hs'
      rw [List.getElem?_mapIdx, hs] at hs'
      simp only [Option.map_some, Option.some.injEq] at hs'
      rw [← hs', h1, h2]
      rfl
    subst hs2
    constructor
    · rw [hre.iss_eq, anch]; exact h.below_not_anchor
    · show e'.hints[s.hint]? = some ec'.iss
      rw [hre.hints_eq, h3.iss_eq]; exact h.hinted
    · rw [ids]
      show ec'.iss ∉ _
      rw [h3.iss_eq]; exact h.not_visited
    · show W'.ec _ ec'.iss = some ec'
      rw [pos, h3.iss_eq]; exact h1
    · show ec'.sub = ec'.iss
      rw [h3.sub_eq, h3.iss_eq]; exact h.self_issued
    · rw [pos]; exact hW.ec_time _ _ _ _ h.served h1 h.ec_time
    · show ec'.fetchEndpoint ≠ ""
      rw [h3.fetch_eq]; exact h.has_fetch
    · show W'.fetch _ ec'.fetchEndpoint e'.iss ec'.iss = some sub'
      rw [pos, h3.fetch_eq, hre.iss_eq, h3.iss_eq, ← h.sub_sub]; exact h2
    · show sub'.iss = ec'.iss
      rw [h4.iss_eq, h3.iss_eq]; exact h.sub_iss
    · show sub'.sub = e'.iss
      rw [h4.sub_eq, hre.iss_eq]; exact h.sub_sub
    · rw [pos]; exact hW.sub_time _ _ _ _ _ _ h.fetched (by rw [← h.sub_sub]; exact h2) h.sub_time
    · rw [hW.host, ids, types]; exact h4.constraintsOk h.constraints
  · intro s' hs'
    obtain ⟨s, hs, hrel⟩ := each_get_left rel hs'
    obtain ⟨e, he, h⟩ := ok 0 s hs
    cases he
    rw [hW.sig, signed_restrict]
    exact hk _ _ _ _ hpl hrel.2.2.2 (h.sub_sub.trans (hi l)) (signed_restrict.mp (hv.leaf_signed s hs))
  · intro k s' next' hs' hn'
    obtain ⟨s, hs, hrel⟩ := each_get_left rel hs'
    obtain ⟨next, hn, hreln⟩ := each_get_left rel hn'
    obtain ⟨h1, h2⟩ := hv.mid_signed k s next hs hn
    obtain ⟨e, he, hnext⟩ := ok (k+1) next hn
    obtain ⟨_, _, hcur⟩ := ok k s hs
    have he2 : e = s.ec := by
      simp only [entities, List.getElem?_cons_succ, List.getElem?_map, hs, Option.map_some, Option.some.injEq] at he
      exact he.symm
    subst he2
    rw [hW.sig]
    exact ⟨hk _ _ _ _ hrel.2.1.2 hreln.2.2.2 hnext.sub_sub h1, hk _ _ _ _ hrel.2.2.2 hreln.2.2.2 (hnext.sub_sub.trans hcur.sub_iss.symm) h2⟩
  · obtain ⟨s, ta, keys, hs, hfa, hak, h1, h2⟩ := hv.top
    obtain ⟨s', hs', hrel⟩ := each_last rel hs
    obtain ⟨_, _, htop⟩ := ok (steps.length - 1) s (by rw [← List.getLast?_eq_getElem?]; exact hs)
    have first : ∀ {A' A : List Anchor}, AnchorsStillVerify W' W A' A → FirstAnchor A s.ec.iss ta → ∃ ta', FirstAnchor A' s.ec.iss ta' ∧ (ta.jwks = none → ta'.jwks = none) ∧
        ∀ ks, ta.jwks = some ks → ∃ ks', ta'.jwks = some ks' ∧ ∀ s s', SamePlace W W' s s' → s.iss = ta.id → Signed W.sig (some ks) s → Signed W.sig (some ks') s' := by
      intro A' A h
      induction h with
      | nil => rintro ⟨pre, post, h, _⟩; cases pre <;> cases h
      | cons h1 h2 ih =>
        rename_i a' a as' as
        rintro ⟨pre, post, he, hid, hp⟩
        cases pre with
        | nil =>
          cases he
          exact ⟨a', ⟨[], as', rfl, h1.1.trans hid, fun x hx => by cases hx⟩, h1.2⟩
        | cons x pre =>
          cases he
          obtain ⟨ta', ⟨pre', post', e', hid', hp'⟩, hr⟩ := ih ⟨pre, post, rfl, hid, fun y hy => hp y (List.mem_cons_of_mem _ hy)⟩
          refine ⟨ta', ⟨a' :: pre', post', by rw [e']; rfl, hid', ?_⟩, hr⟩
          intro y hy
          rcases List.mem_cons.mp hy with rfl | hy
          · rw [h1.1]; exact hp _ List.mem_cons_self
          · exact hp' y hy
    obtain ⟨ta', hfa', hn, hm⟩ := first hA hfa
    have hid : ta.id = s.ec.iss := by obtain ⟨_, _, _, h, _⟩ := hfa; exact h
    rw [hW.sig]
    rcases hak with ⟨ks, h3, rfl⟩ | ⟨h3, rfl⟩
    · obtain ⟨ks', h4, h5⟩ := hm ks h3
      exact ⟨s', ta', some ks', hs', by rw [hrel.2.1.1.iss_eq]; exact hfa', .inl ⟨ks', h4, rfl⟩, h5 _ _ hrel.2.1.2 hid.symm h1, h5 _ _ hrel.2.2.2 (htop.sub_iss.trans hid.symm) h2⟩
    · exact ⟨s', ta', s'.ec.jwks, hs', by rw [hrel.2.1.1.iss_eq]; exact hfa', .inr ⟨hn h3, rfl⟩, hk _ _ _ _ hrel.2.1.2 hrel.2.1.2 htop.self_issued h1,
        hk _ _ _ _ hrel.2.2.2 hrel.2.1.2 (htop.self_issued.trans htop.sub_iss.symm) h2⟩

/-- **C179**: however lifetimes, keys and signatures change, chains are still found, in their new form, if statements that were valid are renewed in time, and those that could be verified with the
published and configured keys still can. -/
theorem C179_chains (W' W : World) (hW : KeysChanged W' W) (hk : StillVerify W' W) (A' A : List Anchor) (hA : AnchorsStillVerify W' W A' A) (id : ID) (types : List String) (fuel fuel' : Nat)
    (cs cs' : List Chain) (h : (⟨A, id, types⟩ : Resolver).chainsNoMeta W fuel = .ok (some cs)) (h' : (⟨A', id, types⟩ : Resolver).chainsNoMeta W' fuel' = .ok (some cs')) (c : Chain)
    (hc : c ∈ cs) : ∃ c' ∈ cs', Each Rekeyed c' c := by
  obtain ⟨hst, s0, hs0, hm, hd⟩ := (mem_run_iff h c).mp hc
  obtain ⟨s0', hs0', hr⟩ := hW.start id s0 hs0
  have hm' : s0'.metadata.isSome = true := by rw [hr.metadata_eq]; exact hm
  rcases hd with ⟨hd, rfl⟩ | ⟨steps, hv, last, hlast, rfl⟩
  · refine ⟨[restrictTypes types s0'], (mem_run_iff h' _).mpr ⟨hst, s0', hs0', hm', .inl ⟨?_, rfl⟩⟩, .cons (hr.restrict types) .nil⟩
    have anch : A'.map Anchor.id = A.map Anchor.id := each_map_eq (fun _ _ h => h.1) hA
    show s0'.iss ∈ A'.map Anchor.id ∨ s0'.hints = []
    rw [hr.iss_eq, hr.hints_eq, anch]
    exact hd
  · obtain ⟨steps', rel, hv'⟩ := path_twin hW hk hA hr (.start hs0 hs0') types hv
    obtain ⟨last', hlast', hrl⟩ := each_last rel hlast
    exact ⟨_, (mem_run_iff h' _).mpr ⟨hst, s0', hs0', hm', .inr ⟨steps', hv', last', hlast', rfl⟩⟩,
      .cons (hr.restrict types) (each_append (each_map (R := StepTwin W W') (fun _ _ h => h.2.2.1) rel) (.cons hrl.2.1.1 .nil))⟩

theorem rekeyed_metadata {c' c : Chain} (h : Each Rekeyed c' c) : chainMetadata c' = chainMetadata c := by
  have hp : c'.map Stmt.policy = c.map Stmt.policy := each_map_eq (fun _ _ h => h.policy_eq) h
  have hcr : c'.map Stmt.policyCrit = c.map Stmt.policyCrit := each_map_eq (fun _ _ h => h.crit_eq) h
  have hcrit : critOk c' = critOk c := by
    have : ∀ d : Chain, critOk d = (d.map Stmt.policyCrit).all (fun l => l.all (fun n => operatorOrder.contains n)) := by
      intro d
      unfold critOk
      rw [List.all_map]
      rfl
    rw [this, this, hcr]
  cases h with
  | nil => rfl
  | cons h1 h2 =>
    cases h2 with
    | nil =>
      show Except.ok _ = Except.ok _
      rw [h1.metadata_eq]
    | cons h3 h4 =>
      unfold chainMetadata
      dsimp only
      rw [hcrit, hp, h1.metadata_eq]

/-- **C179** for `ResolveToValidChains`: the chains also give the same metadata. -/
theorem C179_valid (W' W : World) (hW : KeysChanged W' W) (hk : StillVerify W' W) (A' A : List Anchor) (hA : AnchorsStillVerify W' W A' A) (id : ID) (types : List String) (fuel fuel' : Nat)
    (cs cs' : List Chain) (h : (⟨A, id, types⟩ : Resolver).validChains W fuel = .ok (some cs)) (h' : (⟨A', id, types⟩ : Resolver).validChains W' fuel' = .ok (some cs')) (c : Chain)
    (hc : c ∈ cs) : ∃ c' ∈ cs', Each Rekeyed c' c ∧ chainMetadata c' = chainMetadata c := by
  obtain ⟨cs0, h1, h2⟩ := validChains_eq h
  obtain ⟨cs1, h3, h4⟩ := validChains_eq h'
  obtain ⟨h5, m, h6⟩ := (filterValidMetadata_mem _ _ h2 c).mp hc
  obtain ⟨c', h7, h8⟩ := C179_chains W' W hW hk A' A hA id types _ _ _ _ h1 h3 c h5
  have he := rekeyed_metadata h8
  exact ⟨c', (filterValidMetadata_mem _ _ h4 c').mpr ⟨h7, m, he.trans h6⟩, h8, he⟩

theorem signed_with {sig : SigOracle} {n : Nat} {s : Stmt} {ks : List Nat} (h : SignedWith sig n s) (hn : n ∈ ks) : Signed sig (some ks) s := by
  obtain ⟨r, h1, h2⟩ := h
  exact ⟨ks, r, rfl, (by rintro rfl; cases hn), h1, h2 ks hn⟩

theorem rekeyed_of {W W' : World} (hW : KeysChanged W' W) {s s' : Stmt} (h : SamePlace W W' s s') : Rekeyed s' s := by
  cases h with
  | start h1 h2 => obtain ⟨x, h3, h4⟩ := hW.start _ _ h1; cases h3.symm.trans h2; exact h4
  | ec h1 h2 => obtain ⟨x, h3, h4⟩ := hW.ec _ _ _ h1; cases h3.symm.trans h2; exact h4
  | fetch h1 h2 => obtain ⟨x, h3, h4⟩ := hW.fetch _ _ _ _ _ h1; cases h3.symm.trans h2; exact h4

/-- **C179** for one entity that changes its keys: when it signs with a key that is among those published for it (and those configured, if it is an anchor), all chains are still found. This covers
both the moment when it starts to sign with the new key and the moment when the old key is withdrawn. -/
theorem C179_roll_over (W' W : World) (A' A : List Anchor) (x : ID) (n : Nat) (hR : RolledOver W' W A' A x n) (id : ID) (types : List String) (fuel fuel' : Nat)
    (cs cs' : List Chain) (h : (⟨A, id, types⟩ : Resolver).chainsNoMeta W fuel = .ok (some cs)) (h' : (⟨A', id, types⟩ : Resolver).chainsNoMeta W' fuel' = .ok (some cs')) (c : Chain)
    (hc : c ∈ cs) : ∃ c' ∈ cs', Each Rekeyed c' c := by
  refine C179_chains W' W hR.changed ?_ A' A ?_ id types fuel fuel' cs cs' h h' c hc
  · intro s s' t t' hs ht hst hsig
    by_cases hx : s.iss = x
    · obtain ⟨ks, h1, h2⟩ := hR.published t t' ht (hst.trans hx) ⟨s, s', hs, hx, hsig⟩
      rw [h1]
      exact signed_with (hR.signed s s' hs hx) h2
    · rw [hR.others_keys t t' ht (by rw [hst]; exact hx)]
      exact hR.others_signed s s' hs hx _ hsig
  · have conv : ∀ {A' A : List Anchor}, Each (fun a' a : Anchor => a'.id = a.id ∧ (a.id ≠ x → a'.jwks = a.jwks) ∧ (a.id = x → a.jwks = none → a'.jwks = none) ∧
        (a.id = x → a.jwks ≠ none → ∃ ks, a'.jwks = some ks ∧ n ∈ ks)) A' A → AnchorsStillVerify W' W A' A := by
      intro A' A h
      induction h with
      | nil => exact .nil
      | cons h _ ih =>
        rename_i a' a as' as _
        obtain ⟨h1, h2, h3, h4⟩ := h
        refine .cons ⟨h1, ?_, ?_⟩ ih
        · intro hn
          by_cases hx : a.id = x
          · exact h3 hx hn
          · rw [h2 hx]; exact hn
        · intro ks hks
          by_cases hx : a.id = x
          · obtain ⟨ks', h5, h6⟩ := h4 hx (by rw [hks]; simp)
            exact ⟨ks', h5, fun s s' hs hi _ => signed_with (hR.signed s s' hs (hi.trans hx)) h6⟩
          · exact ⟨ks, by rw [h2 hx]; exact hks, fun s s' hs hi hv => hR.others_signed s s' hs (by rw [hi]; exact hx) _ hv⟩
    exact conv hR.anchors

namespace ExRO

/-- `i` signs with the new key 9, which its superior publishes beside the old one; everything is renewed -/
def re (s : Stmt) : Stmt := { s with iat := 120, exp := 220, jwks := if s.sub = "i" then some [2, 9] else s.jwks, raw := if s.iss = "i" then some 9 else s.raw }

/-- later, when the old statements have expired -/
def W : World := { Ex.W with nowEC := fun _ => 150, nowSub := fun _ => 150, start := fun id => (Ex.W.start id).map re, ec := fun p id => (Ex.W.ec p id).map re, fetch := fun p u sub iss => (Ex.W.fetch p u sub iss).map re }

theorem place {s s' : Stmt} (h : SamePlace Ex.W W s s') : s' = re s := by
  have get : ∀ x : Option Stmt, x = some s → x.map re = some s' → s' = re s := by
    rintro _ rfl h
    cases h
    rfl
  cases h with
  | start h1 h2 => exact get _ h1 h2
  | ec h1 h2 => exact get _ h1 h2
  | fetch h1 h2 => exact get _ h1 h2

theorem rolled : RolledOver W Ex.W Ex.R.anchors Ex.R.anchors "i" 9 := by
  have get : ∀ (x : Option Stmt) s, x = some s → ∃ s', x.map re = some s' ∧ Rekeyed s' s := by
    rintro _ s rfl
    exact ⟨_, rfl, _, _, _, _, rfl⟩
  have win : ∀ (x : Option Stmt) s s', x = some s → x.map re = some s' → InWindow 50 s → InWindow 150 s' := by
    rintro _ s s' rfl h hw
    cases h
    exact ⟨.inr (by show (120 : Int) ≤ 150; decide), .inr (by show (150 : Int) ≤ 220; decide)⟩
  refine ⟨⟨fun id s h => get _ s h, fun p id s h => get _ s h, fun p u a b s h => get _ s h, fun p id s s' h h' => win _ s s' h h', fun p u a b s s' h h' => win _ s s' h h', rfl, rfl⟩,
    ?_, ?_, ?_, ?_, ?_⟩
  · intro s s' h hs
    rw [place h]
    refine ⟨9, by simp [re, hs], fun ks hk => ?_⟩
    show ks.contains 9 = true
    rw [List.contains_iff_mem]
    exact hk
  · intro t t' h ht _
    rw [place h]
    exact ⟨[2, 9], by simp [re, ht], by simp⟩
  · rintro s s' h hs ks ⟨k, r, h1, h2, h3, h4⟩
    rw [place h]
    exact ⟨k, r, h1, h2, by simp [re, hs, h3], h4⟩
  · intro t t' h ht
    rw [place h]
    simp [re, ht]
  · exact .cons ⟨rfl, fun _ => rfl, fun h => absurd h (by decide), fun h => absurd h (by decide)⟩ .nil

/-- The old key no longer verifies what `i` signs, and both chains are found. -/
example : Ex.R.chainsNoMeta Ex.W 5 = .ok (some [Ex.chainI, Ex.chainJ]) ∧ Ex.R.chainsNoMeta W 5 = .ok (some [Ex.chainI.map re, Ex.chainJ.map re]) ∧
    Ex.W.sig [2] 9 = false ∧ Ex.chainI.map re ≠ Ex.chainI := ⟨Ex.run, rfl, rfl, fun h => (by
      have := congrArg (fun c : Chain => c[1]?.bind Stmt.raw) h
      cases this)⟩

/-- Without renewal everything is lost. -/
example : Ex.R.chainsNoMeta { Ex.W with nowEC := fun _ => 150, nowSub := fun _ => 150 } 5 = .ok (some []) := rfl

/-- Without the announcement by the superior the chain over `i` is lost. -/
example : Ex.R.chainsNoMeta { W with fetch := fun p u sub iss => (Ex.W.fetch p u sub iss).map fun s => { re s with jwks := s.jwks } } 5 = .ok (some [Ex.chainJ.map fun s => { re s with jwks := s.jwks }]) := rfl

end ExRO

end Oidfed
