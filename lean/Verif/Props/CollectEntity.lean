import Verif.Spec.CollectEntity
import Verif.Props.MetaResolver
import Verif.Props.Discovery
/-!
# C116: the claims of a collected entity
-/

namespace Oidfed
open Spec

theorem named_iff (claims : Option (List String)) (c : String) : named claims c = true ↔ Named claims c := by
  unfold named Named
  cases claims with
  | none => simp
  | some cs => simp

/-- The parts of a finished collection of an entity. -/
theorem collectEntity_ok {E : Env} {D : Default} {fuel : Nat} {p pm : CallPos} {en : Bool} {claims : Option (List String)} {anchor : ID} {ta : Option Stmt}
    {id : ID} {st : Stmt} {m : Metadata} {e : CollectedFull} (h : collectEntity E D fuel p pm en claims anchor ta id st m = some (.ok e)) :
    ∃ res, collectUI claims m = .ok e.ui ∧ resolveEntity E D fuel p en claims anchor id = some (.ok res) ∧
      entityMarks E D fuel pm claims ta st res = some (.ok e.marks) ∧ e.id = id ∧
      e.types = (if wanted claims "entity_types" then m.entityTypes else []) ∧
      e.chain = (if named claims "trust_chain" then res.bind Resolved.chain else none) ∧
      e.metadata = (if named claims "metadata" then res.bind Resolved.metadata else none) := by
  unfold collectEntity at h
  cases hu : collectUI claims m with
  | error f => rw [hu] at h; cases h
  | ok ui =>
    rw [hu] at h
    simp only at h
    split at h
    · cases h
    · cases h
    · rename_i res hr
      split at h
      · cases h
      · cases h
      · rename_i marks hm
        cases h
        exact ⟨res, rfl, hr, hm, rfl, rfl, rfl, rfl⟩

/-- **C116**, which claims there are, for every default resolver: the id is the subordinate's; the entity types are those for which it has metadata, unless other claims are
named; UI information is that which was named, or all if no claims are named; trust marks, trust chain and metadata are there only if they are named. -/
theorem C116_named (E : Env) (D : Default) (fuel : Nat) (p pm : CallPos) (en : Bool) (claims : Option (List String)) (anchor : ID) (ta : Option Stmt)
    (id : ID) (st : Stmt) (m : Metadata) (hm : GoMetadata m) (e : CollectedFull)
    (h : collectEntity E D fuel p pm en claims anchor ta id st m = some (.ok e)) :
    e.id = id ∧
    (∀ ty, ty ∈ e.types ↔ (claims = none ∨ Named claims "entity_types") ∧ ∃ t em, t.tag = ty ∧ m.known t = some em) ∧
    (∀ t c v, UIShows e.ui t c v → claims = none ∨ Named claims c) ∧
    (e.marks ≠ none → Named claims "trust_marks") ∧ (e.chain ≠ none → Named claims "trust_chain") ∧
    (e.metadata ≠ none → Named claims "metadata") := by
  obtain ⟨res, h1, h2, h3, h4, h5, h6, h7⟩ := collectEntity_ok h
  refine ⟨h4, ?_, ?_, ?_, ?_, ?_⟩
  · intro ty
    rw [h5]
    have hw : wanted claims "entity_types" = true ↔ (claims = none ∨ Named claims "entity_types") := by
      unfold wanted Named
      cases claims with
      | none => simp
      | some cs => simp
    by_cases hc : wanted claims "entity_types" = true
    · rw [if_pos hc]
      simp only [Metadata.entityTypes, List.mem_map, List.mem_filter]
      constructor
      · rintro ⟨t, ⟨_, hs⟩, rfl⟩
        obtain ⟨em, hem⟩ := Option.isSome_iff_exists.mp hs
        exact ⟨hw.mp hc, t, em, rfl, hem⟩
      · rintro ⟨_, t, em, rfl, hem⟩
        exact ⟨t, ⟨by cases t <;> decide, by rw [hem]; rfl⟩, rfl⟩
    · rw [if_neg hc]
      constructor
      · intro h; cases h
      · rintro ⟨h, _⟩; exact absurd (hw.mpr h) hc
  · intro t c v hs
    exact ((C84_shown_partial claims m hm _ h1 t c v).mp hs).1
  · intro hne
    refine (named_iff _ _).mp (Classical.byContradiction fun hn => hne ?_)
    unfold entityMarks at h3
    rw [if_neg hn] at h3
    simp only [Option.some.injEq, Except.ok.injEq] at h3
    exact h3.symm
  · intro hne
    refine (named_iff _ _).mp (Classical.byContradiction fun hn => hne ?_)
    rw [h6, if_neg hn]
  · intro hne
    refine (named_iff _ _).mp (Classical.byContradiction fun hn => hne ?_)
    rw [h7, if_neg hn]

theorem firstWithMetadata_some {cs : List Chain} {f : Fail} (h : firstWithMetadata cs = .error f) (hm : ∀ c ∈ cs, ∃ m, chainMetadata c = .ok m) : cs = [] := by
  cases cs with
  | nil => rfl
  | cons c cs =>
    obtain ⟨m, hc⟩ := hm c List.mem_cons_self
    unfold firstWithMetadata at h
    rw [hc] at h
    cases h

theorem filterValidMetadata_error : ∀ {cs : List Chain} {f : Fail}, filterValidMetadata cs = .error f → f = .panic
  | [], _, h => by cases h
  | c :: cs, f, h => by
    unfold filterValidMetadata at h
    split at h
    · cases h; rfl
    · exact filterValidMetadata_error h
    · cases hf : filterValidMetadata cs with
      | error g =>
        rw [hf] at h
        cases h
        exact filterValidMetadata_error hf
      | ok r => rw [hf] at h; cases h

/-- Finding valid chains fails only with a panic. -/
theorem validChains_error {W : World} {r : Resolver} {fuel : Nat} {f : Fail} (h : r.validChains W fuel = .error f) : f = .panic := by
  unfold Resolver.validChains at h
  cases hn : r.chainsNoMeta W fuel with
  | error g =>
    rw [hn] at h
    cases h
    unfold Resolver.chainsNoMeta at hn
    cases ht : r.resolveTree W fuel with
    | ok t => rw [ht] at hn; cases hn
    | error g' =>
      rw [ht] at hn
      cases hn
      unfold Resolver.resolveTree at ht
      split at ht
      · cases ht
      · split at ht
        · cases ht
        · split at ht
          · cases ht; rfl
          · cases ht
  | ok o =>
    rw [hn] at h
    cases o with
    | none => cases h
    | some cs =>
      simp only [bind, Except.bind] at h
      cases hf : filterValidMetadata cs with
      | error g => rw [hf] at h; cases h; exact filterValidMetadata_error hf
      | ok r => rw [hf] at h; cases h

/-- The local resolver fails without a panic only if no valid chain was found. -/
theorem localChain_error {E : Env} {p : CallPos} {q : Req} (h : localChain E p q = some (.error .error)) :
    q.resolver.validChains (E.world p) E.depth = .ok (some []) := by
  unfold localChain at h
  cases hv : q.resolver.validChains (E.world p) E.depth with
  | error f => rw [hv] at h; cases h; exact absurd (validChains_error hv) (by decide)
  | ok o =>
    rw [hv] at h
    cases o with
    | none => cases h
    | some cs =>
      simp only at h
      split at h
      · rename_i hc
        rw [List.isEmpty_iff.mp hc]
      · simp only [Option.some.injEq] at h
        have hall : ∀ c ∈ sortedByPathLen (E.swaps p) cs, ∃ m, chainMetadata c = .ok m := by
          intro c hc
          obtain ⟨cs0, _, hf⟩ := validChains_eq hv
          exact ((filterValidMetadata_mem _ _ hf c).mp ((sortedByPathLen_perm _ _).mem_iff.mp hc)).2
        have := firstWithMetadata_some h hall
        have hp := sortedByPathLen_perm (E.swaps p) cs
        rw [this] at hp
        rw [hp.nil_eq]

/-- **C116** (part): with the local resolver, the trust chain and the metadata belong together: the chain is one that resolution of the entity up to the requested anchor
produces, and the metadata is the one obtained from it; they are missing only if no valid chain was found. The trust marks are those in the entity's
configuration that are verified with the anchor's configuration, in their order; there are none if that cannot be obtained. Missing: other resolvers. -/
theorem C116_local_partial (E : Env) (fuel : Nat) (p pm : CallPos) (en : Bool) (claims : Option (List String)) (anchor : ID) (ta : Option Stmt)
    (id : ID) (st : Stmt) (m : Metadata) (hi : ∀ i ∈ (E.claims st).marks, InfoOk E.reader i) (e : CollectedFull)
    (h : collectEntity E .loc fuel p pm en claims anchor ta id st m = some (.ok e)) :
    (Named claims "metadata" ∨ Named claims "trust_chain" →
      (∃ c md, Produces (E.world p) ⟨[⟨anchor, none⟩], id, []⟩ c ∧ chainMetadata c = .ok md ∧
        (Named claims "trust_chain" → e.chain = some (c.map Stmt.raw)) ∧ (Named claims "metadata" → e.metadata = md)) ∨
      Resolver.validChains (E.world p) E.depth ⟨[⟨anchor, none⟩], id, []⟩ = .ok (some []) ∧ e.chain = none ∧ e.metadata = none) ∧
    (Named claims "trust_marks" → (ta = none → e.marks = none) ∧
      ∀ a, ta = some a → KeptMarks (E.claims st).marks (e.marks.getD []) (fun k i => MarkVerified E .loc fuel pm a k i)) := by
  obtain ⟨res, -, h2, h3, -, -, h6, h7⟩ := collectEntity_ok h
  unfold resolveEntity at h2
  refine ⟨?_, ?_⟩
  · intro hn
    have hc : (named claims "metadata" || named claims "trust_chain") = true := by
      rcases hn with hn | hn
      · rw [(named_iff _ _).mpr hn]; rfl
      · rw [(named_iff _ _).mpr hn, Bool.or_true]
    rw [if_pos hc] at h2
    split at h2
    · cases h2
    · cases h2
    · rename_i hr
      cases h2
      refine .inr ?_
      cases fuel with
      | zero => cases hr
      | succ fuel =>
        simp only [Default.resolve] at hr
        split at hr
        · cases hr
        · rename_i f hl
          cases hr
          refine ⟨localChain_error hl, ?_, ?_⟩
          · rw [h6]; split <;> rfl
          · rw [h7]; split <;> rfl
        · cases hr
    · rename_i r hr
      cases h2
      refine .inl ?_
      cases fuel with
      | zero => cases hr
      | succ fuel =>
        simp only [Default.resolve] at hr
        split at hr
        · cases hr
        · cases hr
        · rename_i cm hl
          cases hr
          obtain ⟨hp, hm⟩ := localChain_ok (c := cm.1) (m := cm.2) hl
          refine ⟨cm.1, cm.2, hp, hm, ?_, ?_⟩
          · intro hn
            rw [h6, if_pos ((named_iff _ _).mpr hn)]
            rfl
          · intro hn
            rw [h7, if_pos ((named_iff _ _).mpr hn)]
            rfl
  · intro hn
    have hnone : res.bind Resolved.marks = none := by
      split at h2
      · split at h2
        · cases h2
        · cases h2
        · cases h2; rfl
        · rename_i r hr
          cases h2
          cases fuel with
          | zero => cases hr
          | succ fuel =>
            simp only [Default.resolve] at hr
            split at hr
            · cases hr
            · cases hr
            · cases hr; rfl
      · cases h2; rfl
    unfold entityMarks at h3
    rw [if_pos ((named_iff _ _).mpr hn), hnone] at h3
    simp only at h3
    refine ⟨?_, ?_⟩
    · rintro rfl
      simp only [Option.some.injEq, Except.ok.injEq] at h3
      exact h3.symm
    · rintro a rfl
      simp only at h3
      split at h3
      · cases h3
      · cases h3
      · rename_i r hv
        simp only [Option.some.injEq, Except.ok.injEq] at h3
        have hr : e.marks.getD [] = r := by
          rw [← h3]
          cases r <;> rfl
        rw [hr]
        obtain ⟨keep, h8, h9, h10⟩ := verifiedFederation_spec hi hv
        refine ⟨keep, h8, ?_, h10⟩
        intro k i hk
        have := h9 k i hk
        simp only [Nat.zero_add] at this
        exact this

/-- The leaf of the example federation, collected with all of these claims: its chain, its metadata and its trust mark. -/
example : ∃ e md, collectEntity Ex.E .loc 1 [] [7] false (some ["trust_marks", "trust_chain", "metadata", "entity_types"]) "t" (some Ex.tEC) "l" Ex.leafEC Ex.rpMeta =
      some (.ok e) ∧ e.chain = some [some 1, some 2, some 3, some 3] ∧ e.metadata = some md ∧ (e.marks.getD []).map Info.jwt = ["m"] ∧
      e.types = ["openid_relying_party"] := ⟨_, _, rfl, rfl, rfl, rfl, rfl⟩

/-- The hypotheses on the trust marks are met by the example. -/
example : ∀ i ∈ (Ex.E.claims Ex.leafEC).marks, InfoOk Ex.E.reader i := by
  intro i hi m hm
  have hi' : i ∈ [Ex.info] := hi
  simp only [List.mem_singleton] at hi'
  subst hi'; cases hm

/-- **C116**, for every default resolver: trust chain and metadata are what the resolver answers for the entity and the requested anchor, and missing exactly if it
fails. -/
theorem C116_answer (E : Env) (D : Default) (fuel : Nat) (p pm : CallPos) (en : Bool) (claims : Option (List String)) (anchor : ID) (ta : Option Stmt)
    (id : ID) (st : Stmt) (m : Metadata) (e : CollectedFull) (h : collectEntity E D fuel p pm en claims anchor ta id st m = some (.ok e)) :
    (Named claims "trust_chain" → ∀ c, e.chain = some c ↔ ∃ r, D.resolve E fuel p ⟨id, [anchor], []⟩ = some (.ok r) ∧ r.chain = c) ∧
    (Named claims "metadata" → ∀ md, e.metadata = some md ↔ ∃ r, D.resolve E fuel p ⟨id, [anchor], []⟩ = some (.ok r) ∧ r.metadata = some md) := by
  obtain ⟨res, -, h2, -, -, -, h6, h7⟩ := collectEntity_ok h
  have key : ∀ c, c = "metadata" ∨ c = "trust_chain" → Named claims c →
      (res = none ∧ D.resolve E fuel p ⟨id, [anchor], []⟩ = some (.error .error)) ∨
      ∃ x r, res = some x ∧ D.resolve E fuel p ⟨id, [anchor], []⟩ = some (.ok r) ∧ x.chain = some r.chain ∧ x.metadata = r.metadata := by
    intro c hc hn
    unfold resolveEntity at h2
    have hcond : (named claims "metadata" || named claims "trust_chain") = true := by
      rcases hc with rfl | rfl
      · rw [(named_iff _ _).mpr hn]; rfl
      · rw [(named_iff _ _).mpr hn, Bool.or_true]
    rw [if_pos hcond] at h2
    split at h2
    · cases h2
    · cases h2
    · rename_i hr
      cases h2
      exact .inl ⟨rfl, hr⟩
    · rename_i r hr
      simp only [Option.some.injEq, Except.ok.injEq] at h2
      subst h2
      exact .inr ⟨_, r, rfl, hr, rfl, rfl⟩
  refine ⟨?_, ?_⟩
  · intro hn c
    rw [h6, if_pos ((named_iff _ _).mpr hn)]
    rcases key _ (.inr rfl) hn with ⟨rfl, hr⟩ | ⟨x, r, rfl, hr, hc, hm⟩
    · constructor
      · intro h; cases h
      · rintro ⟨r, h, _⟩; rw [hr] at h; cases h
    · simp only [Option.bind_some, hc, Option.some.injEq]
      constructor
      · rintro rfl; exact ⟨r, hr, rfl⟩
      · rintro ⟨r', h, rfl⟩; rw [hr] at h; cases h; rfl
  · intro hn md
    rw [h7, if_pos ((named_iff _ _).mpr hn)]
    rcases key _ (.inl rfl) hn with ⟨rfl, hr⟩ | ⟨x, r, rfl, hr, hc, hm⟩
    · constructor
      · intro h; cases h
      · rintro ⟨r, h, _⟩; rw [hr] at h; cases h
    · simp only [Option.bind_some, hm]
      constructor
      · intro h; exact ⟨r, hr, h⟩
      · rintro ⟨r', h, h'⟩; rw [hr] at h; cases h; exact h'

/-- **C116**: what filters see of the entity is what was collected: metadata only if it was named. `resolved` is the metadata the resolver finds. -/
theorem C116_filtered (E : Env) (D : Default) (fuel : Nat) (p pm : CallPos) (en : Bool) (claims : Option (List String)) (anchor : ID) (ta : Option Stmt)
    (id : ID) (st : Stmt) (m : Metadata) (e : CollectedFull) (h : collectEntity E D fuel p pm en claims anchor ta id st m = some (.ok e))
    (resolved : Option Metadata) (hr : ∀ md, resolved = some md ↔ ∃ r, D.resolve E fuel p ⟨id, [anchor], []⟩ = some (.ok r) ∧ r.metadata = some md) :
    collectedOf claims id m resolved = ⟨e.id, e.types, e.metadata⟩ := by
  have h1 := (C116_answer E D fuel p pm en claims anchor ta id st m e h).2
  obtain ⟨res, -, -, -, h4, h5, -, h7⟩ := collectEntity_ok h
  unfold collectedOf
  rw [← h4, ← h5]
  congr 1
  by_cases hn : Named claims "metadata"
  · obtain ⟨cs, rfl, hm⟩ := hn
    simp only [List.contains_iff_mem.mpr hm, if_true]
    have h1 := h1 ⟨cs, rfl, hm⟩
    refine Option.ext fun md => ?_
    rw [hr md, h1 md]
  · have : e.metadata = none := by rw [h7, if_neg (fun hc => hn ((named_iff _ _).mp hc))]
    rw [this]
    cases claims with
    | none => rfl
    | some cs =>
      have : cs.contains "metadata" = false := by
        cases hc : cs.contains "metadata" with
        | false => rfl
        | true => exact absurd ⟨cs, rfl, List.contains_iff_mem.mp hc⟩ hn
      simp only [this, if_neg Bool.false_ne_true]

/-- A resolve endpoint that reports a trust mark the entity does not have. -/
def Ex.EForged : Env :=
  { Ex.ERemote with http := fun _ _ _ _ => .body (some ⟨none, [⟨"gold", "forged", [], none⟩], [some 1]⟩) }

/-- **C116 fails** with a default resolver that asks resolve endpoints: a trust mark is reported for the entity that is no trust mark at all and is not in its
configuration. It is reported only if the trust chain is asked for, too. -/
theorem C116_remote_refuted : ∃ e e',
    collectEntity Ex.EForged .smart 1 [] [7] false (some ["trust_marks", "trust_chain"]) "t" (some Ex.tEC) "l" Ex.leafEC Ex.rpMeta = some (.ok e) ∧
    (e.marks.getD []).map Info.jwt = ["forged"] ∧ "forged" ∉ (Ex.EForged.claims Ex.leafEC).marks.map Info.jwt ∧ parseMark Ex.EForged.reader "forged" = none ∧
    collectEntity Ex.EForged .smart 1 [] [7] false (some ["trust_marks"]) "t" (some Ex.tEC) "l" Ex.leafEC Ex.rpMeta = some (.ok e') ∧
    "forged" ∉ (e'.marks.getD []).map Info.jwt :=
  ⟨_, _, rfl, rfl, by decide, rfl, rfl, by decide⟩

end Oidfed
