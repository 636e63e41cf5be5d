import Verif.Spec.MoreKeys
import Verif.Lemmas.ChainsExact
import Verif.Props.PrescribeSame
import Verif.Props.Relaxed
import Verif.Props.Jws
/-!
# C178: further keys lose nothing
-/

namespace Oidfed
open Spec

theorem each_get_right {α β : Type} {R : α → β → Prop} : ∀ {as : List α} {bs : List β}, Each R as bs → ∀ {k : Nat} {b : β}, bs[k]? = some b → ∃ a, as[k]? = some a ∧ R a b
  | _, _, .nil, k, b, h => by simp at h
  | _, _, .cons h1 h2, 0, b, h => by
    simp only [List.getElem?_cons_zero, Option.some.injEq] at h ⊢
    subst h
    exact ⟨_, rfl, h1⟩
  | _, _, .cons h1 h2, k + 1, b, h => by
    simp only [List.getElem?_cons_succ] at h ⊢
    exact each_get_right h2 h

theorem each_get_left {α β : Type} {R : α → β → Prop} : ∀ {as : List α} {bs : List β}, Each R as bs → ∀ {k : Nat} {a : α}, as[k]? = some a → ∃ b, bs[k]? = some b ∧ R a b
  | _, _, .nil, k, b, h => by simp at h
  | _, _, .cons h1 h2, 0, b, h => by
    simp only [List.getElem?_cons_zero, Option.some.injEq] at h ⊢
    subst h
    exact ⟨_, rfl, h1⟩
  | _, _, .cons h1 h2, k + 1, b, h => by
    simp only [List.getElem?_cons_succ] at h ⊢
    exact each_get_left h2 h

theorem each_take {α β : Type} {R : α → β → Prop} : ∀ {as : List α} {bs : List β}, Each R as bs → ∀ k, Each R (as.take k) (bs.take k)
  | _, _, .nil, k => by simp only [List.take_nil]; exact .nil
  | _, _, .cons h1 h2, 0 => .nil
  | _, _, .cons h1 h2, k + 1 => .cons h1 (each_take h2 k)

theorem each_map_eq {α β γ : Type} {R : α → β → Prop} {f : α → γ} {g : β → γ} (h : ∀ a b, R a b → f a = g b) : ∀ {as : List α} {bs : List β}, Each R as bs → as.map f = bs.map g
  | _, _, .nil => rfl
  | _, _, .cons h1 h2 => by rw [List.map_cons, List.map_cons, h _ _ h1, each_map_eq h h2]

theorem each_append {α β : Type} {R : α → β → Prop} : ∀ {as : List α} {bs : List β}, Each R as bs → ∀ {as' : List α} {bs' : List β}, Each R as' bs' → Each R (as ++ as') (bs ++ bs')
  | _, _, .nil, _, _, h => h
  | _, _, .cons h1 h2, _, _, h => .cons h1 (each_append h2 h)

theorem each_last {α β : Type} {R : α → β → Prop} {as : List α} {bs : List β} (h : Each R as bs) {b : β} (hb : bs.getLast? = some b) : ∃ a, as.getLast? = some a ∧ R a b := by
  have hl : as.length = bs.length := by
    have := congrArg List.length (each_map_eq (f := fun _ => ()) (g := fun _ => ()) (fun _ _ _ => rfl) h)
    simpa using this
  rw [List.getLast?_eq_getElem?] at hb ⊢
  rw [hl]
  exact each_get_right h hb

theorem each_mapIdx {α β : Type} {R : β → α → Prop} : ∀ (l : List α) (F : Nat → α → β), (∀ k a, l[k]? = some a → R (F k a) a) → Each R (l.mapIdx F) l
  | [], _, _ => .nil
  | a :: l, F, h => by
    rw [List.mapIdx_cons]
    exact .cons (h 0 a rfl) (each_mapIdx l (fun i => F (i + 1)) fun k b hb => h (k + 1) b (by simpa using hb))

section
variable {sig : SigOracle} {s' s : Stmt} (h : Republished sig s' s)
include h
theorem Spec.Republished.iss_eq : s'.iss = s.iss := by obtain ⟨_, _, rfl⟩ := h.same; rfl
theorem Spec.Republished.sub_eq : s'.sub = s.sub := by obtain ⟨_, _, rfl⟩ := h.same; rfl
theorem Spec.Republished.hints_eq : s'.hints = s.hints := by obtain ⟨_, _, rfl⟩ := h.same; rfl
theorem Spec.Republished.metadata_eq : s'.metadata = s.metadata := by obtain ⟨_, _, rfl⟩ := h.same; rfl
theorem Spec.Republished.policy_eq : s'.policy = s.policy := by obtain ⟨_, _, rfl⟩ := h.same; rfl
theorem Spec.Republished.crit_eq : s'.policyCrit = s.policyCrit := by obtain ⟨_, _, rfl⟩ := h.same; rfl
theorem Spec.Republished.fetch_eq : s'.fetchEndpoint = s.fetchEndpoint := by obtain ⟨_, _, rfl⟩ := h.same; rfl
theorem Spec.Republished.types_eq : s'.entityTypes = s.entityTypes := by obtain ⟨_, _, rfl⟩ := h.same; rfl
theorem Spec.Republished.window {now : Time} (hw : InWindow now s) : InWindow now s' := by obtain ⟨_, _, rfl⟩ := h.same; exact hw
theorem Spec.Republished.constraintsOk {host : ID → Option String} {k : Nat} {ids : List ID} {ts : List String} (hw : ConstraintsOk host k ids ts s) : ConstraintsOk host k ids ts s' := by
  obtain ⟨_, _, rfl⟩ := h.same; exact hw
theorem Spec.Republished.restrict (ts : List String) : Republished sig (restrictTypes ts s') (restrictTypes ts s) := by
  unfold restrictTypes
  split
  · exact h
  · obtain ⟨j, r, e⟩ := h.same
    refine ⟨⟨j, r, by rw [e]⟩, h.keys, fun ks ⟨k, n, h1, h2, h3, h4⟩ => ?_⟩
    exact h.signed ks ⟨k, n, h1, h2, h3, h4⟩
end

theorem signed_more {sig : SigOracle} (hg : KeysMayGrow sig) {x' x : Keys} (hk : MoreKeys x' x) {s : Stmt} (h : Signed sig x s) : Signed sig x' s := by
  obtain ⟨ks, r, h1, h2, h3, h4⟩ := h
  obtain ⟨ks', h5, h6⟩ := hk ks h1
  refine ⟨ks', r, h5, ?_, h3, hg _ _ _ h6 h4⟩
  rintro rfl
  cases ks with
  | nil => exact h2 rfl
  | cons k ks => cases h6 k List.mem_cons_self

theorem firstAnchor_more {A' A : List Anchor} (h : AnchorKeysAdded A' A) : ∀ {id : ID} {ta : Anchor}, FirstAnchor A id ta →
    ∃ ta', FirstAnchor A' id ta' ∧ (ta.jwks = none → ta'.jwks = none) ∧ MoreKeys ta'.jwks ta.jwks := by
  induction h with
  | nil => rintro id ta ⟨pre, post, h, _⟩; cases pre <;> cases h
  | cons h1 h2 ih =>
    rename_i a' a as' as
    rintro id ta ⟨pre, post, he, hid, hp⟩
    cases pre with
    | nil =>
      cases he
      exact ⟨a', ⟨[], as', rfl, h1.1.trans hid, fun x hx => by cases hx⟩, h1.2⟩
    | cons x pre =>
      cases he
      obtain ⟨ta', ⟨pre', post', e', hid', hp'⟩, hr⟩ := ih ⟨pre, post, rfl, hid, fun y hy => hp y (List.mem_cons_of_mem _ hy)⟩
      refine ⟨ta', ⟨a' :: pre', post', by rw [e']; rfl, hid', ?_⟩, hr⟩
      intro y hy
      rcases List.mem_cons.mp hy with rfl | hy
      · rw [h1.1]; exact hp _ List.mem_cons_self
      · exact hp' y hy

/-- The steps of a path in the changed federation. -/
def stepsIn (W' : World) (steps : List Step) : List Step :=
  steps.mapIdx fun k s =>
    ⟨s.hint, (W'.ec (posAt steps (k+1)) s.ec.iss).getD s.ec, (W'.fetch (posAt steps (k+1)) s.ec.fetchEndpoint s.sub.sub s.ec.iss).getD s.sub⟩

/-- A step in the changed federation. -/
def StepRel (sig : SigOracle) (x y : Step) : Prop := x.hint = y.hint ∧ Republished sig x.ec y.ec ∧ Republished sig x.sub y.sub

theorem path_more {W' W : World} (hW : KeysAdded W' W) (hg : KeysMayGrow W.sig) {A' A : List Anchor} (hA : AnchorKeysAdded A' A) {leaf' leaf : Stmt} (hl : Republished W.sig leaf' leaf)
    {steps : List Step} (hv : ValidPath W A leaf steps) : ∃ steps', Each (StepRel W.sig) steps' steps ∧ ValidPath W' A' leaf' steps' := by
  have ok : ∀ k s, steps[k]? = some s → ∃ e, (entities leaf steps)[k]? = some e ∧ StepOk W A leaf steps k e s := by
    intro k s hs
    have hk : k < (entities leaf steps).length := by
      have := (List.getElem?_eq_some_iff.mp hs).1
      simp only [entities, List.length_cons, List.length_map]
      omega
    exact ⟨_, List.getElem?_eq_getElem hk, hv.steps_ok k _ s (List.getElem?_eq_getElem hk) hs⟩
  have served : ∀ k s, steps[k]? = some s → ∃ ec' sub', W'.ec (posAt steps (k+1)) s.ec.iss = some ec' ∧ W'.fetch (posAt steps (k+1)) s.ec.fetchEndpoint s.sub.sub s.ec.iss = some sub' ∧
      Republished W.sig ec' s.ec ∧ Republished W.sig sub' s.sub := by
    intro k s hs
    obtain ⟨e, _, h⟩ := ok k s hs
    obtain ⟨ec', h1, h2⟩ := hW.ec _ _ _ h.served
    obtain ⟨sub', h3, h4⟩ := hW.fetch _ _ _ _ _ h.fetched
    rw [← h.sub_sub] at h3
    exact ⟨ec', sub', h1, h3, h2, h4⟩
  have rel : Each (StepRel W.sig) (stepsIn W' steps) steps := by
    refine each_mapIdx _ _ fun k s hs => ?_
    obtain ⟨ec', sub', h1, h2, h3, h4⟩ := served k s hs
    rw [h1, h2]
    exact ⟨rfl, h3, h4⟩
  have pos : ∀ k, posAt (stepsIn W' steps) k = posAt steps k := fun k => each_map_eq (fun _ _ h => h.1) (each_take rel k)
  have ids : ∀ k, idsBelow leaf' (stepsIn W' steps) k = idsBelow leaf steps k := by
    intro k
    unfold idsBelow
    rw [hl.sub_eq, each_map_eq (R := StepRel W.sig) (fun _ _ h => h.2.1.iss_eq) (each_take rel k)]
  have types : ∀ k, typesBelow leaf' (stepsIn W' steps) k = typesBelow leaf steps k := by
    intro k
    unfold typesBelow
    rw [hl.types_eq, each_map_eq (R := StepRel W.sig) (fun _ _ h => h.2.1.types_eq) (each_take rel k)]
  have ents : Each (Republished W.sig) (entities leaf' (stepsIn W' steps)) (entities leaf steps) := .cons hl (each_map (R := StepRel W.sig) (fun _ _ h => h.2.1) rel)
  have anch : A'.map Anchor.id = A.map Anchor.id := each_map_eq (fun _ _ h => h.1) hA
  refine ⟨stepsIn W' steps, rel, ?_, ?_, ?_, ?_⟩
  · intro k e' s' he' hs'
    obtain ⟨s, hs, hrel⟩ := each_get_left rel hs'
    obtain ⟨e, he, hre⟩ := each_get_left ents he'
    have h := hv.steps_ok k e s he hs
    obtain ⟨ec', sub', h1, h2, h3, h4⟩ := served k s hs
    have hs2 : s' = ⟨s.hint, ec', sub'⟩ := by
      unfold stepsIn at hs'
      rw [List.getElem?_mapIdx, hs] at hs'
      simp only [Option.map_some, Option.some.injEq] at hs'
      rw [← hs', h1, h2]
      rfl
    subst hs2
    constructor
    · rw [hre.iss_eq, anch]; exact h.below_not_anchor
    · show e'.hints[s.hint]? = some ec'.iss
      rw [hre.hints_eq, h3.iss_eq]; exact h.hinted
    · rw [ids]
      show ec'.iss ∉ _
      rw [h3.iss_eq]; exact h.not_visited
    · show W'.ec _ ec'.iss = some ec'
      rw [pos, h3.iss_eq]; exact h1
    · show ec'.sub = ec'.iss
      rw [h3.sub_eq, h3.iss_eq]; exact h.self_issued
    · rw [pos, hW.nowEC]; exact h3.window h.ec_time
    · show ec'.fetchEndpoint ≠ ""
      rw [h3.fetch_eq]; exact h.has_fetch
    · show W'.fetch _ ec'.fetchEndpoint e'.iss ec'.iss = some sub'
      rw [pos, h3.fetch_eq, hre.iss_eq, h3.iss_eq, ← h.sub_sub]; exact h2
    · show sub'.iss = ec'.iss
      rw [h4.iss_eq, h3.iss_eq]; exact h.sub_iss
    · show sub'.sub = e'.iss
      rw [h4.sub_eq, hre.iss_eq]; exact h.sub_sub
    · rw [pos, hW.nowSub]; exact h4.window h.sub_time
    · rw [hW.host, ids, types]; exact h4.constraintsOk h.constraints
  · intro s' hs'
    obtain ⟨s, hs, hrel⟩ := each_get_left rel hs'
    rw [hW.sig]
    exact signed_more hg hrel.2.2.keys (hl.signed _ (hv.leaf_signed s hs))
  · intro k s' next' hs' hn'
    obtain ⟨s, hs, hrel⟩ := each_get_left rel hs'
    obtain ⟨next, hn, hreln⟩ := each_get_left rel hn'
    obtain ⟨h1, h2⟩ := hv.mid_signed k s next hs hn
    rw [hW.sig]
    exact ⟨signed_more hg hreln.2.2.keys (hrel.2.1.signed _ h1), signed_more hg hreln.2.2.keys (hrel.2.2.signed _ h2)⟩
  · obtain ⟨s, ta, keys, hs, hfa, hak, h1, h2⟩ := hv.top
    obtain ⟨s', hs', hrel⟩ := each_last rel hs
    obtain ⟨ta', hfa', hn, hm⟩ := firstAnchor_more hA hfa
    rw [hW.sig]
    rcases hak with ⟨ks, h3, rfl⟩ | ⟨h3, rfl⟩
    · obtain ⟨ks', h4, h5⟩ := hm ks h3
      have hmore : MoreKeys (some ks') (some ks) := fun x hx => by cases hx; exact ⟨ks', rfl, h5⟩
      exact ⟨s', ta', some ks', hs', by rw [hrel.2.1.iss_eq]; exact hfa', .inl ⟨ks', h4, rfl⟩, signed_more hg hmore (hrel.2.1.signed _ h1), signed_more hg hmore (hrel.2.2.signed _ h2)⟩
    · exact ⟨s', ta', s'.ec.jwks, hs', by rw [hrel.2.1.iss_eq]; exact hfa', .inr ⟨hn h3, rfl⟩, signed_more hg hrel.2.1.keys (hrel.2.1.signed _ h1),
        signed_more hg hrel.2.1.keys (hrel.2.2.signed _ h2)⟩

/-- **C178**: for every chain there is one with the same statements, made anew, when further keys have been published or configured for anchors. -/
theorem C178_chains (W' W : World) (hW : KeysAdded W' W) (hg : KeysMayGrow W.sig) (A' A : List Anchor) (hA : AnchorKeysAdded A' A) (id : ID) (types : List String) (fuel fuel' : Nat)
    (cs cs' : List Chain) (h : (⟨A, id, types⟩ : Resolver).chainsNoMeta W fuel = .ok (some cs)) (h' : (⟨A', id, types⟩ : Resolver).chainsNoMeta W' fuel' = .ok (some cs')) (c : Chain)
    (hc : c ∈ cs) : ∃ c' ∈ cs', Each (Republished W.sig) c' c := by
  obtain ⟨hst, s0, hs0, hm, hd⟩ := (mem_run_iff h c).mp hc
  obtain ⟨s0', hs0', hr⟩ := hW.start id s0 hs0
  have hm' : s0'.metadata.isSome = true := by rw [hr.metadata_eq]; exact hm
  rcases hd with ⟨hd, rfl⟩ | ⟨steps, hv, last, hlast, rfl⟩
  · refine ⟨[restrictTypes types s0'], (mem_run_iff h' _).mpr ⟨hst, s0', hs0', hm', .inl ⟨?_, rfl⟩⟩, .cons (hr.restrict types) .nil⟩
    have anch : A'.map Anchor.id = A.map Anchor.id := each_map_eq (fun _ _ h => h.1) hA
    show s0'.iss ∈ A'.map Anchor.id ∨ s0'.hints = []
    rw [hr.iss_eq, hr.hints_eq, anch]
    exact hd
  · obtain ⟨steps', rel, hv'⟩ := path_more hW hg hA (hr.restrict types) hv
    obtain ⟨last', hlast', hrl⟩ := each_last rel hlast
    exact ⟨_, (mem_run_iff h' _).mpr ⟨hst, s0', hs0', hm', .inr ⟨steps', hv', last', hlast', rfl⟩⟩,
      .cons (hr.restrict types) (each_append (each_map (R := StepRel W.sig) (fun _ _ h => h.2.2) rel) (.cons hrl.2.1 .nil))⟩

theorem republished_metadata {sig : SigOracle} {c' c : Chain} (h : Each (Republished sig) c' c) : chainMetadata c' = chainMetadata c := by
  have hp : c'.map Stmt.policy = c.map Stmt.policy := each_map_eq (fun _ _ h => h.policy_eq) h
  have hcr : c'.map Stmt.policyCrit = c.map Stmt.policyCrit := each_map_eq (fun _ _ h => h.crit_eq) h
  have hcrit : critOk c' = critOk c := by
    have : ∀ d : Chain, critOk d = (d.map Stmt.policyCrit).all (fun l => l.all (fun n => operatorOrder.contains n)) := by
      intro d
      unfold critOk
      rw [List.all_map]
      rfl
    rw [this, this, hcr]
  cases h with
  | nil => rfl
  | cons h1 h2 =>
    cases h2 with
    | nil =>
      show Except.ok _ = Except.ok _
      rw [h1.metadata_eq]
    | cons h3 h4 =>
      unfold chainMetadata
      dsimp only
      rw [hcrit, hp, h1.metadata_eq]

/-- **C178** for `ResolveToValidChains`: the chains also give the same metadata. -/
theorem C178_valid (W' W : World) (hW : KeysAdded W' W) (hg : KeysMayGrow W.sig) (A' A : List Anchor) (hA : AnchorKeysAdded A' A) (id : ID) (types : List String) (fuel fuel' : Nat)
    (cs cs' : List Chain) (h : (⟨A, id, types⟩ : Resolver).validChains W fuel = .ok (some cs)) (h' : (⟨A', id, types⟩ : Resolver).validChains W' fuel' = .ok (some cs')) (c : Chain)
    (hc : c ∈ cs) : ∃ c' ∈ cs', Each (Republished W.sig) c' c ∧ chainMetadata c' = chainMetadata c := by
  obtain ⟨cs0, h1, h2⟩ := validChains_eq h
  obtain ⟨cs1, h3, h4⟩ := validChains_eq h'
  obtain ⟨h5, m, h6⟩ := (filterValidMetadata_mem _ _ h2 c).mp hc
  obtain ⟨c', h7, h8⟩ := C178_chains W' W hW hg A' A hA id types _ _ _ _ h1 h3 c h5
  have he := republished_metadata h8
  exact ⟨c', (filterValidMetadata_mem _ _ h4 c').mpr ⟨h7, m, he.trans h6⟩, h8, he⟩

theorem fetchKeys_more {C : Crypto} {ks ks' : List JKey} (hs : ∀ k ∈ ks, k ∈ ks') (hd : DistinctKids ks') {s : JSig} {ps : List (String × Nat)} (h : fetchKeys C ks s = some ps) :
    fetchKeys C ks' s = some ps := by
  unfold fetchKeys at h ⊢
  cases hk : s.kid with
  | none => rw [hk] at h; exact h
  | some kid =>
    rw [hk] at h
    dsimp only at h ⊢
    cases hf : ks.find? (fun k => k.kid == some kid) with
    | none => rw [hf] at h; cases h
    | some k =>
      rw [hf] at h
      have h1 : k.kid = some kid := by simpa using List.find?_some hf
      have h2 := hs k (List.mem_of_find?_eq_some hf)
      have hf' : ks'.find? (fun k => k.kid == some kid) = some k := by
        cases hf' : ks'.find? (fun k => k.kid == some kid) with
        | none => exact absurd h1 (by simpa using List.find?_eq_none.mp hf' k h2)
        | some k' =>
          have h3 : k'.kid = some kid := by simpa using List.find?_some hf'
          rw [hd k' (List.mem_of_find?_eq_some hf') k h2 (h3.trans h1.symm)]
      rw [hf']
      exact h

/-- **C178** for one JWT: what verifies with a key set verifies, with the same content, with every larger key set in which no key ID is used twice. -/
theorem C178_jws (C : Crypto) (ks ks' : List JKey) (hs : ∀ k ∈ ks, k ∈ ks') (hd : DistinctKids ks') (m : Jws) (p : JObj) (h : verifyWithSet C (some ks) (some m) = some p) :
    verifyWithSet C (some ks') (some m) = some p := by
  have loop : ∀ sigs, sigLoop C ks m.payload sigs = true → sigLoop C ks' m.payload sigs = true := by
    intro sigs
    induction sigs with
    | nil => intro h; cases h
    | cons s sigs ih =>
      intro h
      rw [sigLoop] at h ⊢
      cases hf : fetchKeys C ks s with
      | none => rw [hf] at h; cases h
      | some ps =>
        rw [hf] at h
        rw [fetchKeys_more hs hd hf]
        dsimp only at h ⊢
        split at h
        · rename_i hp; rw [if_pos hp]
        · rename_i hp; rw [if_neg hp]; exact ih h
  unfold verifyWithSet at h ⊢
  dsimp only at h ⊢
  split at h
  · cases h
  · rename_i hne
    split at h
    · rename_i hl
      have : ks'.isEmpty = false := by
        cases ks with
        | nil => exact absurd rfl hne
        | cons k ks =>
          cases ks' with
          | nil => cases hs k List.mem_cons_self
          | cons _ _ => rfl
      rw [this, if_neg (by simp), if_pos (loop _ hl)]
      exact h
    · cases h

/-- Two keys of which one does not verify the signature; the wrong one is added to the set. -/
example : DistinctKids [⟨some "n", none, none, 4⟩, ⟨some "k", none, none, 3⟩] ∧
    verifyWithSet exCrypto (some [⟨some "k", none, none, 3⟩]) (some ⟨[], [⟨some "entity-statement+jwt", some "k", some "ES512", 3⟩]⟩) = some [] := by
  refine ⟨?_, rfl⟩
  intro k hk k' hk' h
  simp only [List.mem_cons, List.not_mem_nil, or_false] at hk hk'
  rcases hk with rfl | rfl <;> rcases hk' with rfl | rfl <;> simp_all

/-- Without that condition it fails: a further key with the same ID, found first, hides the right one. -/
example : ∃ (C : Crypto) (ks ks' : List JKey) (m : Jws) (p : JObj), (∀ k ∈ ks, k ∈ ks') ∧ verifyWithSet C (some ks) (some m) = some p ∧ verifyWithSet C (some ks') (some m) = none :=
  ⟨exCrypto, [⟨some "k", none, none, 3⟩], [⟨some "k", none, none, 4⟩, ⟨some "k", none, none, 3⟩], ⟨[], [⟨some "entity-statement+jwt", some "k", some "ES512", 3⟩]⟩, [],
    fun k hk => List.mem_cons_of_mem _ hk, rfl, rfl⟩

namespace ExMK

/-- a statement with a further key -/
def more (s : Stmt) : Stmt := { s with jwks := s.jwks.map (· ++ [9]) }

/-- the example federation, where everyone publishes a further key -/
def W : World := { Ex.W with start := fun id => (Ex.W.start id).map more, ec := fun p id => (Ex.W.ec p id).map more, fetch := fun p u sub iss => (Ex.W.fetch p u sub iss).map more }

theorem added : KeysAdded W Ex.W ∧ KeysMayGrow Ex.W.sig ∧ AnchorKeysAdded [⟨"t", some [3, 9]⟩] Ex.R.anchors := by
  have rep : ∀ s, Republished Ex.W.sig (more s) s := by
    intro s
    refine ⟨⟨_, s.raw, rfl⟩, fun ks h => ⟨ks ++ [9], ?_, fun k hk => List.mem_append_left _ hk⟩, fun _ h => h⟩
    show s.jwks.map _ = _
    rw [h]
    rfl
  have get : ∀ (x : Option Stmt) s, x = some s → ∃ s', x.map more = some s' ∧ Republished Ex.W.sig s' s := by
    rintro _ s rfl
    exact ⟨_, rfl, rep s⟩
  refine ⟨⟨fun id s h => get _ s h, fun p id s h => get _ s h, fun p u a b s h => get _ s h, rfl, rfl, rfl, rfl⟩, ?_, .cons ⟨rfl, fun h => (by cases h), ?_⟩ .nil⟩
  · intro ks ks' n h h1
    have h1 : ks.contains n = true := h1
    show ks'.contains n = true
    rw [List.contains_iff_mem] at h1 ⊢
    exact h n h1
  · intro ks h
    cases h
    exact ⟨_, rfl, by simp⟩

example : Ex.R.chainsNoMeta Ex.W 5 = .ok (some [Ex.chainI, Ex.chainJ]) ∧ (⟨[⟨"t", some [3, 9]⟩], "l", []⟩ : Resolver).chainsNoMeta W 5 = .ok (some [Ex.chainI.map more, Ex.chainJ.map more]) ∧
    ∃ cs cs', Ex.R.validChains Ex.W 5 = .ok (some cs) ∧ (⟨[⟨"t", some [3, 9]⟩], "l", []⟩ : Resolver).validChains W 5 = .ok (some cs') ∧ Ex.chainI ∈ cs :=
  ⟨Ex.run, rfl, _, _, rfl, rfl, List.mem_cons_self⟩

end ExMK

theorem verifyRaw_more {sig : SigOracle} (hg : KeysMayGrow sig) {x' x : Keys} (hk : MoreKeys x' x) {raw : Option Nat} (h : verifyRaw sig x raw = true) : verifyRaw sig x' raw = true := by
  unfold verifyRaw at h
  split at h
  · rename_i r ks
    obtain ⟨ks', rfl, h6⟩ := hk ks rfl
    simp only [Bool.and_eq_true] at h
    have : sig ks' r = true := hg _ _ _ h6 h.2
    show (!ks'.isEmpty && sig ks' r) = true
    rw [this]
    cases ks with
    | nil => simp at h
    | cons k ks =>
      cases ks' with
      | nil => cases h6 k List.mem_cons_self
      | cons _ _ => rfl
  · cases h

theorem markExternal_more {R : JWTReader} {sig : SigOracle} (hg : KeysMayGrow sig) {nowM nowD : Time} {keys' keys : Keys} (hk : MoreKeys keys' keys) {ta' ta : MarkAnchor} {m m' : Mark}
    (ht : MarksKeysAdded ta' ta m.type) (h : m.verifyExternal R sig nowM nowD keys (ownersFor ta m.type) = (true, m')) :
    m.verifyExternal R sig nowM nowD keys' (ownersFor ta' m.type) = (true, m') := by
  unfold Mark.verifyExternal at h ⊢
  split at h
  · cases h
  · rename_i h1
    rw [if_neg h1]
    split at h
    · cases h
    · rename_i h2
      have h3 : verifyRaw sig keys m.raw = true := by simpa using h2
      rw [verifyRaw_more hg hk h3, if_neg (by simp)]
      unfold ownersFor at h ⊢
      cases ho : AMap.get ta.owners m.type with
      | none =>
        rw [ho] at h
        rw [ht.no_owner ho]
        exact h
      | some o =>
        rw [ho] at h
        obtain ⟨o', ho', hid, hkeys⟩ := ht.owner o ho
        rw [ho']
        dsimp only at h ⊢
        split at h
        · cases h
        · cases h
        · rename_i d mm hd
          rw [hid]
          split at h
          · cases h
          · rename_i c1
            rw [if_neg c1]
            split at h
            · cases h
            · rename_i c2
              rw [if_neg c2]
              split at h
              · cases h
              · rename_i c3
                rw [if_neg c3]
                simp only [Prod.mk.injEq] at h ⊢
                refine ⟨?_, h.2⟩
                have h4 := h.1
                unfold Delegation.verifyExternal at h4 ⊢
                simp only [Bool.and_eq_true] at h4 ⊢
                exact ⟨h4.1, verifyRaw_more hg hkeys h4.2⟩

/-- **C178** for trust marks: a trust mark that is valid stays valid if its issuer, or the owner of its type, has further keys, or if the anchor allows further issuers. -/
theorem C178_marks (R : JWTReader) (sig : SigOracle) (hg : KeysMayGrow sig) (nowM nowD : Time) (K' K : ID → Option (Res Keys))
    (hK : ∀ iss ks, K iss = some (.ok ks) → ∃ ks', K' iss = some (.ok ks') ∧ MoreKeys ks' ks) (ta' ta : MarkAnchor) (i i' : Info) (ht : MarksKeysAdded ta' ta i.type)
    (h : i.verifyFederation R sig nowM nowD K ta = some (.ok (true, i'))) : i.verifyFederation R sig nowM nowD K' ta' = some (.ok (true, i')) := by
  unfold Info.verifyFederation at h ⊢
  split at h
  · cases h
  · rename_i m j hm
    split at h
    · cases h
    · rename_i hty
      have hty' : m.type = i.type := by simpa using hty
      rw [if_neg hty]
      have main : ∀ m', m.verifyFederation R sig nowM nowD K ta = some (.ok (true, m')) → m.verifyFederation R sig nowM nowD K' ta' = some (.ok (true, m')) := by
        intro m' h
        unfold Mark.verifyFederation at h ⊢
        split at h
        · cases h
        · rename_i ha
          have ha' : issuerAllowed ta' m.type m.iss = true := by
            have ha : issuerAllowed ta m.type m.iss = true := by simpa using ha
            have e : ∀ t : MarkAnchor, issuerAllowed t m.type m.iss = match issuersFor t m.type with | none => true | some l => l.contains m.iss := by
              intro t
              unfold issuerAllowed issuersFor
              cases t.issuers with
              | none => rfl
              | some x =>
                show _ = match AMap.get x m.type with | none => true | some l => l.contains m.iss
                cases hx : AMap.get x m.type <;> simp only [hx]
            rw [e] at ha ⊢
            cases hl' : issuersFor ta' m.type with
            | none => rfl
            | some l' =>
              obtain ⟨l, hl, hsub⟩ := ht.issuers l' (by rw [← hty']; exact hl')
              rw [hty', hl] at ha
              have ha : l.contains m.iss = true := ha
              show l'.contains m.iss = true
              rw [List.contains_iff_mem] at ha ⊢
              exact hsub _ ha
          rw [ha', if_neg (by simp)]
          split at h
          · cases h
          · cases h
          · cases h
          · rename_i ks hks
            obtain ⟨ks', h1, h2⟩ := hK _ ks hks
            rw [h1]
            simp only [Option.some.injEq, Except.ok.injEq] at h ⊢
            exact markExternal_more hg h2 (by rw [hty']; exact ht) h
      split at h
      · cases h
      · cases h
      · rename_i b m' hv
        cases h
        rw [main m' hv]

namespace ExMK

/-- a delegated trust mark, signed with key 7, its delegation with key 8 -/
def mark : Info := ⟨"tm", "m", [], some ⟨"https://tmi", "https://leaf", "tm", 5, none, "d", some 7, some ⟨"https://own", "https://tmi", "tm", 5, none, some 8⟩⟩⟩

/-- the anchor, with the keys of the owner and the allowed issuers -/
def ta (keys : List Nat) (issuers : List ID) : MarkAnchor := ⟨"https://ta", some [1], some [("tm", issuers)], [("tm", ⟨"https://own", some keys⟩)]⟩

example : MarksKeysAdded (ta [9, 8] ["https://x", "https://tmi"]) (ta [8] ["https://tmi"]) "tm" ∧
    (∃ i', mark.verifyFederation (fun _ => none) Ex.W.sig 10 10 (fun _ => some (.ok (some [7]))) (ta [8] ["https://tmi"]) = some (.ok (true, i'))) ∧
    mark.verifyFederation (fun _ => none) Ex.W.sig 10 10 (fun _ => some (.ok (some [9]))) (ta [8] ["https://tmi"]) = some (.ok (false, mark)) := by
  refine ⟨⟨?_, fun h => (by cases h), ?_⟩, ⟨_, rfl⟩, rfl⟩
  · intro l h
    cases h
    exact ⟨_, rfl, by simp⟩
  · intro o h
    cases h
    exact ⟨_, rfl, rfl, fun ks h => by cases h; exact ⟨_, rfl, by simp⟩⟩

end ExMK

end Oidfed
