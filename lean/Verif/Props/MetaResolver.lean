import Verif.Lemmas.MetaResolver
import Verif.Props.Resolver
import Verif.Props.ChainFilter
/-!
# C38, C40, C53, C54, C63-C66: trust marks in the federation, metadata resolvers
-/

namespace Oidfed
open Spec

namespace Ex

/-- Trust mark `m` of type `tm`, issued by `iss` to `sub`, message `raw`. -/
def markReader (iss sub : ID) (raw : Nat) : JWTReader := fun s =>
  if s = "m" then some ⟨"trust-mark+jwt", [("iss", .str iss), ("sub", .str sub), ("trust_mark_type", .str "tm")], raw⟩
  else none

def info : Info := ⟨"tm", "m", [], none⟩

/-- The example federation with `info` as the leaf's trust mark. The endpoints of the anchors do not answer. -/
def E : Env where
  world := fun _ => W
  depth := 5
  swaps := fun _ => []
  anchorEC := fun _ _ id => ecOf id
  issuerEC := fun _ id => ecOf id
  http := fun _ _ _ _ => .failed
  now := fun _ _ => (50, 50)
  claims := fun s => if s.iss = "l" then ⟨[info], none, []⟩ else ⟨[], none, []⟩
  reader := markReader "t" "other" 3
  parse := fun n => match n with
    | 1 => some leafEC
    | 2 => some iEC
    | 3 => some tEC
    | _ => none
  sig := sigOf

def req : Req := ⟨"l", ["t"], []⟩

theorem chainE (p : CallPos) : ∃ m, localChain E p req = some (.ok (chainI, m)) := ⟨_, rfl⟩

end Ex

/-! ## C38 -/

/-- An accepted mark, for every default resolver: what holds in any case. -/
theorem C38_allowed_and_delegated_partial (E : Env) (D : Default) (fuel : Nat) (p : CallPos) (ta : MarkAnchor) (nowM nowD : Time)
    (i i' : Info) (hi : InfoOk E.reader i)
    (h : i.verifyFederation E.reader E.sig nowM nowD (issuerKeys E p (D.resolve E fuel p) ta) ta = some (.ok (true, i'))) :
    ∃ m keys, parseMark E.reader i.jwt = some m ∧ m.type = i.type ∧ IssuerAllowed ta m.type m.iss ∧
      (m.iss = ta.sub → keys = ta.jwks) ∧ MarkOk E.reader E.sig nowM nowD keys (AMap.get ta.owners m.type) m := by
  obtain ⟨m, keys, h1, h2, h3, h4, h5⟩ := (infoFederation_spec hi h).1.mp rfl
  refine ⟨m, keys, h1, h2, h3, ?_, h5⟩
  intro he
  unfold issuerKeys at h4
  rw [if_pos he] at h4
  cases h4; rfl

/-- The keys found with the local resolver. -/
theorem issuerKeys_loc {E : Env} {fuel : Nat} {p : CallPos} {ta : MarkAnchor} {iss : ID} {keys : Keys}
    (h : issuerKeys E p (Default.loc.resolve E fuel p) ta iss = some (.ok keys)) (hne : iss ≠ ta.sub) :
    ∃ c leaf r s', Produces (E.world p) ⟨[⟨ta.sub, none⟩], iss, []⟩ c ∧ c[0]? = some leaf ∧ leaf.raw = some r ∧
      E.parse r = some s' ∧ s'.jwks = keys ∧ keys ≠ none ∧ keys ≠ some [] := by
  unfold issuerKeys at h
  rw [if_neg hne] at h
  cases fuel with
  | zero => cases h
  | succ fuel =>
    simp only [Default.resolve] at h
    cases hl : localChain E p ⟨iss, [ta.sub], []⟩ with
    | none => rw [hl] at h; cases h
    | some x =>
      rw [hl] at h
      cases x with
      | error f => cases h
      | ok cm =>
        obtain ⟨c, m⟩ := cm
        obtain ⟨hp, _⟩ := localChain_ok hl
        simp only [plainPayload] at h
        cases c with
        | nil =>
          -- an empty chain is never produced
          exfalso
          obtain ⟨_, leaf, _, h0, _⟩ := C12_about_entity_partial _ _ _ hp
          cases h0
        | cons leaf rest =>
          simp only [List.map_cons] at h
          cases hr : leaf.raw with
          | none => rw [hr] at h; cases h
          | some r =>
            rw [hr] at h
            simp only [Option.some.injEq] at h
            unfold issuerStmtKeys at h
            cases hs : E.parse r with
            | none => rw [hs] at h; cases h
            | some s' =>
              rw [hs] at h
              simp only at h
              cases hj : s'.jwks with
              | none => rw [hj] at h; cases h
              | some ks =>
                rw [hj] at h
                cases ks with
                | nil => cases h
                | cons k ks =>
                  cases h
                  exact ⟨_, leaf, r, s', hp, rfl, hr, hs, hj, by simp, by simp⟩

/-- **C38** (part), for the local resolver, if the issuer's server answers with a configuration of the issuer that names an authority, and the anchor's
server with one that has the anchor's keys. Missing: that the library makes sure of this. -/
theorem C38_verify_federation_partial (E : Env) (fuel : Nat) (p : CallPos) (ta : MarkAnchor) (nowM nowD : Time)
    (i i' : Info) (hi : InfoOk E.reader i) (hsig : (E.world p).sig = E.sig)
    (hiss : ∀ m, parseMark E.reader i.jwt = some m → ∀ s, (E.world p).start m.iss = some s → s.iss = m.iss ∧ s.hints ≠ [] ∧
      ∀ r s', s.raw = some r → E.parse r = some s' → s'.jwks = s.jwks)
    (hta : ∀ pos s, (E.world p).ec pos ta.sub = some s → s.jwks = ta.jwks)
    (h : i.verifyFederation E.reader E.sig nowM nowD (issuerKeys E p (Default.loc.resolve E fuel p) ta) ta = some (.ok (true, i'))) :
    ∃ m keys, parseMark E.reader i.jwt = some m ∧ m.type = i.type ∧ IssuerAllowed ta m.type m.iss ∧ KeysThrough E.sig ta m.iss keys ∧
      MarkOk E.reader E.sig nowM nowD keys (AMap.get ta.owners m.type) m := by
  obtain ⟨m, keys, h1, h2, h3, h4, h5⟩ := (infoFederation_spec hi h).1.mp rfl
  refine ⟨m, keys, h1, h2, h3, ?_, h5⟩
  by_cases he : m.iss = ta.sub
  · left
    refine ⟨he, ?_⟩
    unfold issuerKeys at h4
    rw [if_pos he] at h4
    cases h4; rfl
  · right
    obtain ⟨c, leaf, r, s', hp, h0, hr, hs', hk, _, _⟩ := issuerKeys_loc h4 he
    obtain ⟨s0, leaf', hs0, h0', hleaf, _⟩ := C12_about_entity_partial _ _ _ hp
    rw [h0] at h0'; cases h0'
    obtain ⟨hsi, hh, hparse⟩ := hiss m h1 s0 hs0
    have hrs : s0.raw = some r := by rw [hleaf] at hr; exact hr
    have hjw : leaf.jwks = keys := by rw [hleaf, ← hk]; exact (hparse r s' hrs hs').symm
    have hli : leaf.iss = m.iss := by rw [hleaf]; exact hsi
    rcases C02_every_chain_anchored_partial _ _ _ hp with ⟨hl, _⟩ | ⟨s1, hs1, hc1, hor⟩
    · refine ⟨c, leaf, h0, hli, hjw, C01_chains_linked _ _ _ hp hl, ?_, ?_⟩
      · have := (C03_signed_by_superior_keys _ _ _ hp hl).1
        rw [hsig] at this
        exact this
      · obtain ⟨s1, steps, _, hv, hc⟩ := produces_path hp hl
        obtain ⟨st, ta', keys', hlast, hfa, hak, hg1, hg2⟩ := hv.top
        obtain ⟨pre, s, top, ta2, keys2, hceq, hfa2, hak2, hsg1, hsg2⟩ := (C03_signed_by_superior_keys _ _ _ hp hl).2
        refine ⟨pre, s, top, hceq, ?_⟩
        -- the only anchor has no configured keys, so the keys are those of its configuration
        have hta2 : ta2 = ⟨ta.sub, none⟩ := by
          obtain ⟨p1, p2, hpp, _, _⟩ := hfa2
          have : ta2 ∈ [(⟨ta.sub, none⟩ : Anchor)] := by
            rw [show [(⟨ta.sub, none⟩ : Anchor)] = p1 ++ ta2 :: p2 from hpp]; simp
          simpa using this
        have htopid : top.iss = ta.sub := by
          obtain ⟨p1, p2, _, h, _⟩ := hfa2
          rw [hta2] at h; exact h.symm
        have hkk : keys2 = top.jwks := by
          rcases hak2 with ⟨ks, hks, _⟩ | ⟨_, h⟩
          · rw [hta2] at hks; cases hks
          · exact h
        -- the last statement is the configuration the anchor's server gave
        have htop : top = st.ec := by
          obtain ⟨s2, hs2, hc2⟩ := hc
          rw [hlast] at hs2; cases hs2
          rw [hceq] at hc2
          have := congrArg List.getLast? hc2
          rw [← List.cons_append, List.getLast?_append, List.getLast?_append] at this
          simpa using this
        have hserved : ∃ pos, (E.world p).ec pos top.iss = some top := by
          have hne : steps ≠ [] := by intro hx; rw [hx] at hlast; cases hlast
          have hlast' : steps[steps.length - 1]? = some st := by rw [← List.getLast?_eq_getElem?]; exact hlast
          have hlen : steps.length - 1 < (entities (restrictTypes [] s1) steps).length := by
            unfold entities; simp; omega
          have := hv.steps_ok (steps.length - 1) _ st (List.getElem?_eq_getElem hlen) hlast'
          rw [htop]
          exact ⟨_, this.served⟩
        obtain ⟨pos, hpos⟩ := hserved
        rw [htopid] at hpos
        rw [hkk, hta pos top hpos, hsig] at hsg1 hsg2
        exact ⟨hsg1, hsg2⟩
    · exfalso
      rw [show (⟨[⟨ta.sub, none⟩], m.iss, []⟩ : Resolver).start = m.iss from rfl] at hs1
      have : s1 = s0 := by
        have hs0' : (E.world p).start m.iss = some s0 := hs0
        rw [hs1] at hs0'; cases hs0'; rfl
      subst this
      rcases hor with ⟨a, ha, hai⟩ | hh'
      · simp only [List.mem_singleton] at ha
        subst ha
        exact he (hsi.symm.trans hai.symm)
      · exact hh hh'

/-- The hypotheses are met: a mark issued by `l`, which is two steps below the anchor. -/
example : ∃ i', Ex.info.verifyFederation (Ex.markReader "l" "x" 1) Ex.sigOf 50 50
    (issuerKeys { Ex.E with reader := Ex.markReader "l" "x" 1 } [] (Default.loc.resolve { Ex.E with reader := Ex.markReader "l" "x" 1 } 1 [])
      ⟨"t", some [3], some [("tm", ["l", "u"])], []⟩) ⟨"t", some [3], some [("tm", ["l", "u"])], []⟩ = some (.ok (true, i')) ∧
    (∀ m, parseMark (Ex.markReader "l" "x" 1) "m" = some m → ∀ s, Ex.W.start m.iss = some s → s.iss = m.iss ∧ s.hints ≠ [] ∧
      ∀ r s', s.raw = some r → Ex.E.parse r = some s' → s'.jwks = s.jwks) ∧
    (∀ pos s, Ex.W.ec pos "t" = some s → s.jwks = some [3]) := by
  refine ⟨_, rfl, ?_, ?_⟩
  · intro m hm s hs
    cases hm
    cases hs
    refine ⟨rfl, by decide, ?_⟩
    intro r s' hr hs'
    cases hr
    cases hs'
    rfl
  · intro pos s hs
    cases hs
    rfl

/-- What C38 claims of an accepted mark. -/
def EstablishedMark (E : Env) (ta : MarkAnchor) (nowM nowD : Time) (i : Info) : Prop :=
  ∃ m keys, parseMark E.reader i.jwt = some m ∧ IssuerAllowed ta m.type m.iss ∧ KeysThrough E.sig ta m.iss keys ∧
    MarkOk E.reader E.sig nowM nowD keys (AMap.get ta.owners m.type) m

/-- An issuer nobody knows: no authority hints. -/
def Ex.evil : Stmt := { Ex.mk "evil" "evil" (some [66]) 66 with metadata := some Ex.rpMeta }

/-- Key 3, the anchor's, has signed nothing at all. -/
def Ex.sigEvil : SigOracle := fun ks r => ks.contains r && r != 3

def Ex.EEvil : Env :=
  { Ex.E with
    world := fun _ => { Ex.W with start := fun _ => some Ex.evil, sig := Ex.sigEvil }
    reader := Ex.markReader "evil" "l" 66
    parse := fun _ => some Ex.evil
    sig := Ex.sigEvil }

theorem sigEvil_none (r : Nat) : Ex.sigEvil [3] r = false := by
  unfold Ex.sigEvil
  by_cases h : r = 3
  · simp [h]
  · simp [h]

theorem not_through {ta : MarkAnchor} {iss : ID} {keys : Keys} (hta : ta.jwks = some [3]) (hi : iss ≠ ta.sub) :
    ¬ KeysThrough Ex.sigEvil ta iss keys := by
  rintro (⟨h, _⟩ | ⟨c, leaf, _, _, _, _, _, pre, s, top, _, _, ks, r, hk, _, _, hs⟩)
  · exact hi h
  · rw [hta] at hk; cases hk
    rw [sigEvil_none] at hs
    cases hs

/-- **C38 fails**: a mark of an issuer that names no authority, and about which the anchor has said nothing, is accepted. -/
theorem C38_unanchored_issuer_refuted : ¬ ∀ (E : Env) (fuel : Nat) (p : CallPos) (ta : MarkAnchor) (nowM nowD : Time) (i i' : Info),
    InfoOk E.reader i → (E.world p).sig = E.sig →
    i.verifyFederation E.reader E.sig nowM nowD (issuerKeys E p (Default.loc.resolve E fuel p) ta) ta = some (.ok (true, i')) →
    EstablishedMark E ta nowM nowD i := by
  intro h
  obtain ⟨m, keys, h1, _, h3, _⟩ := h Ex.EEvil 1 [] ⟨"t", some [3], none, []⟩ 50 50 Ex.info _ (by intro m h; cases h) rfl rfl
  cases h1
  exact not_through rfl (by decide) h3

/-- A federation whose anchor's server answers with a configuration with other keys. -/
def Ex.EOther : Env :=
  { Ex.E with
    world := fun _ => { Ex.W with
      sig := Ex.sigEvil
      ec := fun _ id => if id = "t" then some { Ex.tEC with jwks := some [4], raw := some 4 } else Ex.ecOf id
      fetch := fun _ ep sub _ => if ep = "t/fetch" then some (Ex.mk "t" sub (some [2]) 4) else Ex.fetchOf ep sub }
    reader := Ex.markReader "l" "x" 1
    sig := Ex.sigEvil }

/-- **C38 fails**: the issuer's chain is verified with whatever keys the anchor's server presents, not with the keys of the anchor given. -/
theorem C38_other_anchor_keys_refuted : ¬ ∀ (E : Env) (fuel : Nat) (p : CallPos) (ta : MarkAnchor) (nowM nowD : Time) (i i' : Info),
    InfoOk E.reader i → (E.world p).sig = E.sig →
    (∀ m, parseMark E.reader i.jwt = some m → ∀ s, (E.world p).start m.iss = some s → s.iss = m.iss ∧ s.hints ≠ []) →
    i.verifyFederation E.reader E.sig nowM nowD (issuerKeys E p (Default.loc.resolve E fuel p) ta) ta = some (.ok (true, i')) →
    EstablishedMark E ta nowM nowD i := by
  intro h
  obtain ⟨m, keys, h1, _, h3, _⟩ := h Ex.EOther 1 [] ⟨"t", some [3], none, []⟩ 50 50 Ex.info _ (by intro m h; cases h) rfl
    (by intro m hm s hs; cases hm; cases hs; exact ⟨rfl, by decide⟩) rfl
  cases h1
  exact not_through rfl (by decide) h3

/-- The anchor's server names a resolve endpoint, and that endpoint says whatever it likes. -/
def Ex.ERemote : Env :=
  { Ex.EEvil with
    anchorEC := fun _ _ _ => some { Ex.tEC with metadata := some ⟨fun t => match t with
      | .fed => some ⟨[⟨"FederationResolveEndpoint", "federation_resolve_endpoint", .str, .str "t/resolve"⟩], ["FederationResolveEndpoint"], []⟩
      | _ => none, none⟩ }
    world := fun _ => { Ex.W with start := fun _ => none, sig := Ex.sigEvil }
    http := fun _ _ _ _ => .body (some ⟨none, [], [some 66]⟩) }

/-- **C38 fails** with the smart resolver: the issuer's keys are taken from a resolve response nobody verified. Nothing is known here
about the issuer, not even a configuration. -/
theorem C38_remote_keys_refuted : ¬ ∀ (E : Env) (fuel : Nat) (p : CallPos) (ta : MarkAnchor) (nowM nowD : Time) (i i' : Info),
    InfoOk E.reader i → (E.world p).sig = E.sig →
    i.verifyFederation E.reader E.sig nowM nowD (issuerKeys E p (Default.smart.resolve E fuel p) ta) ta = some (.ok (true, i')) →
    EstablishedMark E ta nowM nowD i := by
  intro h
  obtain ⟨m, keys, h1, _, h3, _⟩ := h Ex.ERemote 1 [] ⟨"t", some [3], none, []⟩ 50 50 Ex.info _ (by intro m h; cases h) rfl rfl
  cases h1
  exact not_through rfl (by decide) h3

/-! ## C40 -/

/-- **C40 fails**: `l` shows a mark that was issued to `other`, and it is reported as a trust mark of `l`. -/
theorem C40_issued_to_subject_refuted : ¬ ∀ (E : Env) (D : Default) (fuel : Nat) (p : CallPos) (q : Req) (r : Payload),
    localPayload E (D.resolve E fuel) p q = some (.ok r) →
    ∀ i ∈ r.marks, ∀ m, parseMark E.reader i.jwt = some m → m.sub = q.subject := by
  intro h
  have := h Ex.E .loc 1 [] Ex.req _ rfl _ (List.mem_cons_self) _ rfl
  revert this
  decide

/-- **C40** (part): the reported marks are exactly those of the marks in the entity's configuration that the anchor of the chain allows, in
their order, each verified with keys found for its issuer and delegated by the owner the anchor lists. Missing: the comparison of the
subject. -/
theorem C40_reported_marks_partial (E : Env) (D : Default) (fuel : Nat) (p : CallPos) (q : Req) (r : Payload)
    (h : localPayload E (D.resolve E fuel) p q = some (.ok r))
    (hi : ∀ s, ∀ i ∈ (E.claims s).marks, InfoOk E.reader i) :
    ∃ c leaf top, Produces (E.world p) q.resolver c ∧ c.head? = some leaf ∧ c.getLast? = some top ∧ r.chain = c.map Stmt.raw ∧
      chainMetadata c = .ok r.metadata ∧
      ∃ keep : List Bool, keep.length = (E.claims leaf).marks.length ∧
        r.marks.map (fun i => (i.type, i.jwt)) = (((E.claims leaf).marks.zip keep).filter (fun x => x.2)).map (fun x => (x.1.type, x.1.jwt)) ∧
        ∀ k i, (E.claims leaf).marks[k]? = some i → (keep[k]? = some true ↔
          ∃ m keys, parseMark E.reader i.jwt = some m ∧ m.type = i.type ∧ IssuerAllowed (E.anchorOf top) m.type m.iss ∧
            issuerKeys E (p ++ [k]) (D.resolve E fuel (p ++ [k])) (E.anchorOf top) m.iss = some (.ok keys) ∧
            MarkOk E.reader E.sig (E.now p k).1 (E.now p k).2 keys (AMap.get (E.claims top).owners m.type) m) := by
  unfold localPayload at h
  cases hl : localChain E p q with
  | none => rw [hl] at h; cases h
  | some x =>
    rw [hl] at h
    cases x with
    | error f => cases h
    | ok cm =>
      obtain ⟨c, m⟩ := cm
      obtain ⟨hp, hm⟩ := localChain_ok hl
      simp only at h
      split at h
      · rename_i leaf top hhead hlast
        split at h
        · cases h
        · cases h
        · rename_i marks hv
          simp only [Option.some.injEq, Except.ok.injEq] at h
          subst h
          obtain ⟨keep, h1, h2, h3⟩ := verifiedFederation_spec (hi leaf) hv
          refine ⟨c, leaf, top, hp, hhead, hlast, rfl, hm, keep, h1, h3, ?_⟩
          intro k i hk
          have := h2 k i hk
          simp only [Nat.zero_add] at this
          exact this
      · cases h

/-- The hypotheses are met by the example. -/
example : (∃ r, localPayload Ex.E (Default.loc.resolve Ex.E 1) [] Ex.req = some (.ok r) ∧ r.marks.length = 1) ∧
    ∀ s, ∀ i ∈ (Ex.E.claims s).marks, InfoOk Ex.E.reader i := by
  refine ⟨⟨_, rfl, rfl⟩, ?_⟩
  intro s i hi m hm
  unfold Ex.E at hi
  simp only at hi
  split at hi
  · simp only [List.mem_singleton] at hi
    subst hi; cases hm
  · simp at hi

/-! ## C53 -/

/-- **C53**, first half: never both, for each of the three resolvers. -/
theorem C53_never_both (E : Env) (p : CallPos) (q : Req) :
    (∀ x, simplePossible x ≠ (true, true)) ∧ localPossible E p q ≠ some (.ok (true, true)) ∧
    smartPossible E p q ≠ some (.ok (true, true)) := by
  have hl : localPossible E p q ≠ some (.ok (true, true)) := by
    unfold localPossible
    split
    · simp
    · simp
    · rename_i cs _
      cases cs <;> simp
  refine ⟨?_, hl, ?_⟩
  · intro x
    cases x with
    | failed => simp [simplePossible]
    | errorCode c =>
      unfold simplePossible
      simp only
      split
      · simp
      · split
        · simp
        · split <;> simp
    | body o => cases o <;> simp [simplePossible]
  · unfold smartPossible
    rw [smartPossibleRemote_eq]
    cases hf : firstAnswer _ E p q 0 q.anchors with
    | none => exact hl
    | some b =>
      obtain ⟨n, ⟨x, _, hx⟩, _⟩ := ((firstAnswer_spec _ E p q).1 b).mp hf
      simp only [ne_eq, Option.some.injEq, Except.ok.injEq]
      rintro rfl
      unfold decisive at hx
      rcases hs : simplePossible x with ⟨_ | _, _ | _⟩ <;> rw [hs] at hx <;> simp at hx

theorem simple_valid_iff (x : HttpAnswer) : (simplePossible x).1 = true ↔ SaysValid x := by
  cases x with
  | failed => simp [simplePossible, SaysValid]
  | errorCode c =>
    unfold simplePossible SaysValid
    simp only [reduceCtorEq, exists_false, false_or, HttpAnswer.errorCode.injEq]
    split
    · rename_i h
      rcases h with rfl | rfl <;> decide
    · split
      · rename_i h; subst h; decide
      · split
        · rename_i h; simp [h]
        · rename_i h; simp [h]
  | body o => cases o <;> simp [simplePossible, SaysValid]

theorem simple_invalid_iff (x : HttpAnswer) : (simplePossible x).2 = true ↔ SaysInvalid x ∨ NoAnswer x := by
  cases x with
  | failed => simp [simplePossible, NoAnswer]
  | errorCode c =>
    unfold simplePossible SaysInvalid NoAnswer
    simp only [reduceCtorEq, or_false, HttpAnswer.errorCode.injEq]
    split
    · rename_i h
      rcases h with rfl | rfl <;> decide
    · split
      · rename_i h; subst h; decide
      · split
        · rename_i h; subst h; decide
        · rename_i h _; simp [h]
  | body o => cases o <;> simp [simplePossible, SaysInvalid, NoAnswer]

/-- **C53**: the entity is reported valid exactly if the resolver said so. -/
theorem C53_valid_means_evidence (x : HttpAnswer) : (simplePossible x).1 = true ↔ SaysValid x := simple_valid_iff x

/-- **C53** (part): it is reported confirmed invalid exactly if the resolver said so, or did not answer. Missing: the difference. -/
theorem C53_invalid_partial (x : HttpAnswer) : (simplePossible x).2 = true ↔ SaysInvalid x ∨ NoAnswer x := simple_invalid_iff x

/-- **C53 fails**: a network failure is reported as confirmed invalid. -/
theorem C53_network_failure_refuted : ¬ ∀ x, (simplePossible x).2 = true → SaysInvalid x := by
  intro h
  have := h .failed rfl
  cases this

/-- **C53 fails** for the local resolver: if the entity's server cannot be reached it is reported confirmed invalid. -/
theorem C53_local_failure_refuted : ∃ E : Env, (E.world []).start "l" = none ∧
    localPossible E [] Ex.req = some (.ok (false, true)) :=
  ⟨{ Ex.E with world := fun _ => { Ex.W with start := fun _ => none } }, rfl, rfl⟩

/-- **C53** (part) for the smart resolver: valid is reported exactly if an endpoint said so, and every endpoint before it answered something
indecisive; or if no endpoint was decisive and there is a valid chain. Confirmed invalid: likewise, where a failing endpoint counts
as one saying invalid. -/
theorem C53_smart_partial (E : Env) (p : CallPos) (q : Req) :
    (smartPossible E p q = some (.ok (true, false)) ↔
      (∃ n x, EndpointSays E p q n x ∧ SaysValid x ∧
        ∀ n' x', n' < n → EndpointSays E p q n' x' → ¬ SaysValid x' ∧ ¬ SaysInvalid x' ∧ ¬ NoAnswer x') ∨
      ((∀ n x, EndpointSays E p q n x → ¬ SaysValid x ∧ ¬ SaysInvalid x ∧ ¬ NoAnswer x) ∧
        localPossible E p q = some (.ok (true, false)))) ∧
    (smartPossible E p q = some (.ok (false, true)) ↔
      (∃ n x, EndpointSays E p q n x ∧ (SaysInvalid x ∨ NoAnswer x) ∧
        ∀ n' x', n' < n → EndpointSays E p q n' x' → ¬ SaysValid x' ∧ ¬ SaysInvalid x' ∧ ¬ NoAnswer x') ∨
      ((∀ n x, EndpointSays E p q n x → ¬ SaysValid x ∧ ¬ SaysInvalid x ∧ ¬ NoAnswer x) ∧
        localPossible E p q = some (.ok (false, true)))) := by
  -- what counts as decisive
  have hval : ∀ x, decisive x = some (true, false) ↔
      SaysValid x := by
    intro x
    rw [← simple_valid_iff]
    unfold decisive
    rcases simplePossible x with ⟨_ | _, _ | _⟩ <;> simp
  have hboth := (C53_never_both E p q).1
  have hinv : ∀ x, decisive x = some (false, true) ↔
      SaysInvalid x ∨ NoAnswer x := by
    intro x
    rw [← simple_invalid_iff]
    have := hboth x
    unfold decisive
    rcases hx : simplePossible x with ⟨_ | _, _ | _⟩
    all_goals first | exact absurd hx this | simp
  have hnone : ∀ n, (¬ ∃ b, Gives decisive E p q n b) ↔
      ∀ x, EndpointSays E p q n x → ¬ SaysValid x ∧ ¬ SaysInvalid x ∧ ¬ NoAnswer x := by
    intro n
    constructor
    · intro h x hx
      refine ⟨fun hv => h ⟨_, x, hx, (hval x).mpr hv⟩, fun hv => h ⟨_, x, hx, (hinv x).mpr (.inl hv)⟩,
        fun hv => h ⟨_, x, hx, (hinv x).mpr (.inr hv)⟩⟩
    · rintro h ⟨b, x, hx, hb⟩
      obtain ⟨h1, h2, h3⟩ := h x hx
      rw [← simple_valid_iff] at h1
      have h4 : ¬ (simplePossible x).2 = true := by rw [simple_invalid_iff]; exact not_or.mpr ⟨h2, h3⟩
      unfold decisive at hb
      rcases hs : simplePossible x with ⟨_ | _, _ | _⟩ <;> rw [hs] at h1 h4 hb <;> simp at h1 h4 hb
  have main : ∀ b : Bool × Bool, (b = (true, false) ∨ b = (false, true)) → (smartPossible E p q = some (.ok b) ↔
      (∃ n x, EndpointSays E p q n x ∧ decisive x = some b ∧
        ∀ n' x', n' < n → EndpointSays E p q n' x' → ¬ SaysValid x' ∧ ¬ SaysInvalid x' ∧ ¬ NoAnswer x') ∨
      ((∀ n x, EndpointSays E p q n x → ¬ SaysValid x ∧ ¬ SaysInvalid x ∧ ¬ NoAnswer x) ∧
        localPossible E p q = some (.ok b))) := by
    intro b _
    unfold smartPossible
    rw [smartPossibleRemote_eq]
    have hspec := firstAnswer_spec decisive E p q
    cases hf : firstAnswer decisive E p q 0 q.anchors with
    | none =>
      have hno := hspec.2.mp hf
      have hall : ∀ n x, EndpointSays E p q n x → ¬ SaysValid x ∧ ¬ SaysInvalid x ∧ ¬ NoAnswer x :=
        fun n => (hnone n).mp (fun ⟨b, hb⟩ => hno ⟨n, b, hb⟩)
      simp only
      constructor
      · intro h; exact .inr ⟨hall, h⟩
      · rintro (⟨n, x, hx, hb, _⟩ | ⟨_, h⟩)
        · exact absurd ⟨n, b, x, hx, hb⟩ hno
        · exact h
    | some b' =>
      obtain ⟨n, ⟨x, hx, hb'⟩, hn⟩ := (hspec.1 b').mp hf
      simp only [Option.some.injEq, Except.ok.injEq]
      constructor
      · rintro rfl
        exact .inl ⟨n, x, hx, hb', fun n' x' h' => (hnone n').mp (hn n' h') x'⟩
      · rintro (⟨n2, x2, hx2, hb2, hn2⟩ | ⟨hall, _⟩)
        · have : firstAnswer decisive E p q 0 q.anchors = some b :=
            (hspec.1 b).mpr ⟨n2, ⟨x2, hx2, hb2⟩, fun n' h' => (hnone n').mpr (fun x' => hn2 n' x' h')⟩
          rw [hf] at this
          cases this; rfl
        · exact absurd ⟨b', x, hx, hb'⟩ ((hnone n).mpr (hall n))
  constructor
  · rw [main (true, false) (.inl rfl)]
    simp only [hval]
  · rw [main (false, true) (.inr rfl)]
    simp only [hinv]

/-! ## C54 -/

/-- **C54**: smart resolving gives the response of the first anchor whose endpoint gives one; if there is none, what local resolving gives. -/
theorem C54_first_success (E : Env) (rec : CallPos → Req → Option (Res Payload)) (p : CallPos) (q : Req) (r : Payload) :
    smartPayload E rec p q = some (.ok r) ↔
      (∃ n, EndpointSays E p q n (.body (some r)) ∧ ∀ n', n' < n → ¬ ∃ r', EndpointSays E p q n' (.body (some r'))) ∨
      ((¬ ∃ n r', EndpointSays E p q n (.body (some r'))) ∧ localPayload E rec p q = some (.ok r)) := by
  have hg : ∀ n r', Gives (fun x => match x with | HttpAnswer.body (some r) => some r | _ => none) E p q n r' ↔
      EndpointSays E p q n (.body (some r')) := by
    intro n r'
    constructor
    · rintro ⟨x, hx, hf⟩
      cases x with
      | failed => cases hf
      | errorCode c => cases hf
      | body o =>
        cases o with
        | none => cases hf
        | some r2 => cases hf; exact hx
    · intro h; exact ⟨_, h, rfl⟩
  have hspec := firstAnswer_spec (fun x => match x with | HttpAnswer.body (some r) => some r | _ => none) E p q
  simp only [hg] at hspec
  unfold smartPayload
  rw [smartRemote_eq]
  cases hf : firstAnswer (fun x => match x with | HttpAnswer.body (some r) => some r | _ => none) E p q 0 q.anchors with
  | none =>
    have := hspec.2.mp hf
    constructor
    · intro h; exact .inr ⟨this, h⟩
    · rintro (⟨n, h, _⟩ | ⟨_, h⟩)
      · exact absurd ⟨n, r, h⟩ this
      · exact h
  | some r0 =>
    have h0 := (hspec.1 r0).mp hf
    simp only [Option.some.injEq, Except.ok.injEq]
    constructor
    · rintro rfl; exact .inl h0
    · rintro (h | ⟨hno, _⟩)
      · have := (hspec.1 r).mpr h
        rw [hf] at this; cases this; rfl
      · obtain ⟨n, h, _⟩ := h0
        exact absurd ⟨n, r0, h⟩ hno

/-- Both cases occur. -/
example : (∃ r, smartPayload Ex.ERemote (fun _ _ => none) [] Ex.req = some (.ok r) ∧
    EndpointSays Ex.ERemote [] Ex.req 0 (.body (some r))) ∧
    ∃ r, smartPayload Ex.E (Default.loc.resolve Ex.E 1) [] Ex.req = some (.ok r) ∧ r.chain.length = 4 :=
  ⟨⟨_, rfl, "t", _, rfl, rfl, by decide, rfl⟩, _, rfl, rfl⟩

/-! ## C63: no panic -/

/-- **C63 fails**: verifying a mark of an issuer whose configuration has no keys panics. -/
theorem C63_no_panic_refuted : ¬ ∀ (E : Env) (D : Default) (fuel : Nat) (p : CallPos) (ta : MarkAnchor) (nowM nowD : Time) (i : Info),
    i.verifyFederation E.reader E.sig nowM nowD (issuerKeys E p (D.resolve E fuel p) ta) ta ≠ some (.error .panic) := by
  intro h
  exact h { Ex.E with reader := Ex.markReader "l" "x" 1, parse := fun _ => some { Ex.leafEC with jwks := none } } .loc 1 []
    ⟨"t", some [3], none, []⟩ 50 50 Ex.info rfl

theorem verifyFederation_panic {R : JWTReader} {sig : SigOracle} {nowM nowD : Time} {keysFor : ID → Option (Res Keys)} {ta : MarkAnchor}
    {i : Info} {f : Fail} (h : i.verifyFederation R sig nowM nowD keysFor ta = some (.error f)) :
    f = .panic ∧ ∃ iss, keysFor iss = some (.error .panic) := by
  unfold Info.verifyFederation at h
  split at h
  · cases h
  · split at h
    · cases h
    · rename_i m i' _ _
      cases hv : m.verifyFederation R sig nowM nowD keysFor ta with
      | none => rw [hv] at h; cases h
      | some x =>
        rw [hv] at h
        cases x with
        | ok b => cases h
        | error f' =>
          cases h
          unfold Mark.verifyFederation at hv
          split at hv
          · cases hv
          · cases hk : keysFor m.iss with
            | none => rw [hk] at hv; cases hv
            | some y =>
              rw [hk] at hv
              cases y with
              | ok k => cases hv
              | error g =>
                cases g with
                | error => cases hv
                | panic => cases hv; exact ⟨rfl, m.iss, hk⟩

/-- **C63** (part), local resolver: verification of a trust mark panics only if resolving its issuer does, or the issuer's configuration has no
message to parse again, or no keys. Missing: these cases. -/
theorem C63_no_panic_partial (E : Env) (fuel : Nat) (p : CallPos) (ta : MarkAnchor) (nowM nowD : Time) (i : Info)
    (hchain : ∀ iss, localChain E p ⟨iss, [ta.sub], []⟩ ≠ some (.error .panic))
    (hraw : ∀ iss s, (E.world p).start iss = some s → ∃ r, s.raw = some r ∧ ∀ s', E.parse r = some s' → s'.jwks ≠ none)
    (f : Fail) : i.verifyFederation E.reader E.sig nowM nowD (issuerKeys E p (Default.loc.resolve E fuel p) ta) ta ≠ some (.error f) := by
  intro h
  obtain ⟨_, iss, h⟩ := verifyFederation_panic h
  unfold issuerKeys at h
  split at h
  · cases h
  · cases fuel with
    | zero => cases h
    | succ fuel =>
      simp only [Default.resolve] at h
      cases hl : localChain E p ⟨iss, [ta.sub], []⟩ with
      | none => rw [hl] at h; cases h
      | some x =>
        rw [hl] at h
        cases x with
        | error g =>
          cases g with
          | panic => exact hchain iss hl
          | error => cases h
        | ok cm =>
          obtain ⟨c, m⟩ := cm
          obtain ⟨hp, _⟩ := localChain_ok hl
          obtain ⟨s0, leaf, hs0, h0, hleaf, _⟩ := C12_about_entity_partial _ _ _ hp
          obtain ⟨r, hr, hj⟩ := hraw iss s0 hs0
          cases c with
          | nil => cases h0
          | cons x xs =>
            cases h0
            have hlr : leaf.raw = some r := by rw [hleaf]; exact hr
            simp only [plainPayload, List.map_cons, hlr, Option.some.injEq] at h
            unfold issuerStmtKeys at h
            cases hs : E.parse r with
            | none => rw [hs] at h; cases h
            | some s' =>
              rw [hs] at h
              simp only at h
              cases hk : s'.jwks with
              | none => exact hj s' hs hk
              | some ks =>
                rw [hk] at h
                cases ks <;> cases h

/-! ## C64: termination -/

/-- The example, where the leaf has a trust mark issued by itself. -/
def Ex.ELoop : Env := { Ex.E with reader := Ex.markReader "l" "l" 1 }

theorem info_unfinished {R : JWTReader} {sig : SigOracle} {nowM nowD : Time} {keysFor : ID → Option (Res Keys)} {ta : MarkAnchor}
    {i : Info} {m : Mark} (hc : i.cached = none) (hp : parseMark R i.jwt = some m) (ht : m.type = i.type)
    (ha : issuerAllowed ta m.type m.iss = true) (hk : keysFor m.iss = none) : i.verifyFederation R sig nowM nowD keysFor ta = none := by
  have h1 : i.trustMark R = (some m, { i with cached := some m }) := by
    unfold Info.trustMark
    rw [hc, hp]
  unfold Info.verifyFederation
  rw [h1]
  simp only [ht, ne_eq, not_true_eq_false, if_false]
  have : m.verifyFederation R sig nowM nowD keysFor ta = none := by
    unfold Mark.verifyFederation
    rw [ha, hk]
    simp
  rw [this]

theorem validChains_none {W : World} {r : Resolver} {fuel : Nat} (h : r.validChains W fuel = .ok none) :
    r.chainsNoMeta W fuel = .ok none := by
  unfold Resolver.validChains at h
  cases hn : r.chainsNoMeta W fuel with
  | error f => rw [hn] at h; cases h
  | ok o =>
    rw [hn] at h
    cases o with
    | none => rfl
    | some cs =>
      simp only [bind, Except.bind] at h
      split at h <;> cases h

theorem loop_step (p : CallPos) (rec : CallPos → Req → Option (Res Payload)) (h : rec (p ++ [0]) Ex.req = none) :
    localPayload Ex.ELoop rec p Ex.req = none := by
  obtain ⟨m, hm⟩ : ∃ m, localChain Ex.ELoop p Ex.req = some (.ok (Ex.chainI, m)) := ⟨_, rfl⟩
  have hk : issuerKeys Ex.ELoop (p ++ [0]) (rec (p ++ [0])) (Ex.ELoop.anchorOf Ex.tEC) "l" = none := by
    unfold issuerKeys
    rw [if_neg (by decide)]
    have : rec (p ++ [0]) ⟨"l", [(Ex.ELoop.anchorOf Ex.tEC).sub], []⟩ = none := h
    rw [this]
  have hv : Ex.info.verifyFederation Ex.ELoop.reader Ex.ELoop.sig (Ex.ELoop.now p 0).1 (Ex.ELoop.now p 0).2
      (fun iss => issuerKeys Ex.ELoop (p ++ [0]) (rec (p ++ [0])) (Ex.ELoop.anchorOf Ex.tEC) iss) (Ex.ELoop.anchorOf Ex.tEC) = none := by
    exact info_unfinished (m := ⟨"l", "l", "tm", Time.zero, none, "", some 1, none⟩) rfl rfl rfl rfl hk
  unfold localPayload
  rw [hm]
  have h1 : Ex.chainI.head? = some Ex.leafEC := rfl
  have h2 : Ex.chainI.getLast? = some Ex.tEC := rfl
  have h3 : (Ex.ELoop.claims Ex.leafEC).marks = [Ex.info] := rfl
  simp only [h1, h2, h3, verifiedFederation, hv]

/-- **C64 fails**: with the smart resolver as default resolver, resolving an entity that has a trust mark issued by itself never ends,
although each single trust chain resolution does. -/
theorem C64_terminates_refuted : (∀ p q, localChain Ex.ELoop p q ≠ none) ∧
    ∀ fuel, Default.smart.resolve Ex.ELoop fuel [] Ex.req = none := by
  refine ⟨?_, ?_⟩
  · intro p q h
    unfold localChain at h
    have hU : ∀ fuel, 4 + 1 ≤ fuel → q.resolver.chainsNoMeta Ex.W fuel ≠ .ok none :=
      C09_resolution_terminates Ex.W q.resolver ["l", "i", "j", "t"]
        (by
          intro _ id s hs h hh
          have : Ex.ecOf id = some s := hs
          unfold Ex.ecOf at this
          split at this <;> cases this <;> revert hh <;> revert h <;> simp [Ex.leafEC, Ex.iEC, Ex.jEC, Ex.tEC, Ex.mk])
        (by
          intro id s hs h hh
          have : Ex.ecOf id = some s := hs
          unfold Ex.ecOf at this
          split at this <;> cases this <;> revert hh <;> revert h <;> simp [Ex.leafEC, Ex.iEC, Ex.jEC, Ex.tEC, Ex.mk])
    cases hv : q.resolver.validChains Ex.W 5 with
    | error f =>
      have : q.resolver.validChains (Ex.ELoop.world p) Ex.ELoop.depth = .error f := hv
      rw [this] at h; cases h
    | ok o =>
      have hv' : q.resolver.validChains (Ex.ELoop.world p) Ex.ELoop.depth = .ok o := hv
      rw [hv'] at h
      cases o with
      | none => exact hU 5 (by omega) (validChains_none hv)
      | some cs =>
        simp only at h
        split at h <;> cases h
  · have key : ∀ fuel p, Default.smart.resolve Ex.ELoop fuel p Ex.req = none := by
      intro fuel
      induction fuel with
      | zero => intro p; rfl
      | succ fuel ih =>
        intro p
        rw [Default.resolve]
        have hs : smartRemote Ex.ELoop p Ex.req 0 Ex.req.anchors = none := rfl
        simp only [smartPayload, hs]
        exact loop_step p _ (ih _)
    intro fuel
    exact key fuel []

/-- A federation with finitely many entities: all authority hints are among `U`. -/
def Finite (W : World) (U : List ID) : Prop :=
  (∀ p id s, W.ec p id = some s → ∀ h ∈ s.hints, h ∈ U) ∧ ∀ id s, W.start id = some s → ∀ h ∈ s.hints, h ∈ U

theorem localChain_finished {E : Env} {U : List ID} (p : CallPos) (q : Req) (hU : Finite (E.world p) U) (hd : U.length + 1 ≤ E.depth) :
    localChain E p q ≠ none := by
  intro h
  unfold localChain at h
  cases hv : q.resolver.validChains (E.world p) E.depth with
  | error f => rw [hv] at h; cases h
  | ok o =>
    rw [hv] at h
    cases o with
    | none => exact C09_resolution_terminates _ q.resolver U hU.1 hU.2 _ hd (validChains_none hv)
    | some cs =>
      simp only at h
      split at h <;> cases h

/-- Default resolvers that do not verify trust marks: all but the smart one. -/
theorem resolve_finished {E : Env} {U : List ID} (D : Default) (hD : D ≠ .smart) (hU : ∀ p, Finite (E.world p) U) (hd : U.length + 1 ≤ E.depth)
    (p : CallPos) (q : Req) : D.resolve E 1 p q ≠ none := by
  cases D with
  | smart => exact absurd rfl hD
  | loc =>
    rw [Default.resolve]
    have := localChain_finished p q (hU p) hd
    cases hl : localChain E p q with
    | none => exact absurd hl this
    | some x => cases x <;> simp
  | simple ep => rw [Default.resolve]; simp
  | user f => rw [Default.resolve]; simp

theorem verifiedFederation_finished {R : JWTReader} {sig : SigOracle} {now : Nat → Time × Time} {keysFor : Nat → ID → Option (Res Keys)}
    {ta : MarkAnchor} (hk : ∀ n iss, keysFor n iss ≠ none) : ∀ (is : List Info) (n : Nat),
    verifiedFederation R sig now keysFor ta n is ≠ none
  | [], _ => by simp [verifiedFederation]
  | i :: is, n => by
    have ih := verifiedFederation_finished (R := R) (sig := sig) (now := now) (ta := ta) hk is (n+1)
    have hi : i.verifyFederation R sig (now n).1 (now n).2 (keysFor n) ta ≠ none := by
      unfold Info.verifyFederation
      split
      · simp
      · split
        · simp
        · rename_i m i' _ _
          have hm : m.verifyFederation R sig (now n).1 (now n).2 (keysFor n) ta ≠ none := by
            unfold Mark.verifyFederation
            split
            · simp
            · have := hk n m.iss
              split <;> simp_all
          split <;> simp_all
    unfold verifiedFederation
    split
    · rename_i h; exact absurd h hi
    · simp
    · split
      · rename_i h; exact absurd h ih
      · simp
      · simp

/-- **C64** (part): with any other default resolver, resolving an entity with its trust marks ends on every finite federation, with the local
and with the smart resolver. Missing: the smart resolver as default resolver. -/
theorem C64_terminates_partial (E : Env) (D : Default) (hD : D ≠ .smart) (U : List ID) (hU : ∀ p, Finite (E.world p) U)
    (hd : U.length + 1 ≤ E.depth) (p : CallPos) (q : Req) :
    localPayload E (D.resolve E 1) p q ≠ none ∧ smartPayload E (D.resolve E 1) p q ≠ none := by
  have hl : localPayload E (D.resolve E 1) p q ≠ none := by
    unfold localPayload
    have := localChain_finished p q (hU p) hd
    split
    · rename_i h; exact absurd h this
    · simp
    · split
      · rename_i leaf top _ _
        have hv := verifiedFederation_finished (R := E.reader) (sig := E.sig) (now := E.now p)
          (keysFor := fun n iss => issuerKeys E (p ++ [n]) (D.resolve E 1 (p ++ [n])) (E.anchorOf top) iss) (ta := E.anchorOf top) (by
            intro n iss
            unfold issuerKeys
            split
            · simp
            · have hr := resolve_finished D hD hU hd (p ++ [n]) ⟨iss, [(E.anchorOf top).sub], []⟩
              split
              · rename_i h; exact absurd h hr
              · simp
              · split <;> simp) (E.claims leaf).marks 0
        simp only
        split
        · rename_i h; exact absurd h hv
        · simp
        · simp
      · simp
  refine ⟨hl, ?_⟩
  unfold smartPayload
  split
  · simp
  · exact hl

/-- The example federation is finite. -/
example : Finite Ex.W ["l", "i", "j", "t"] := by
  constructor
  · intro _ id s hs h hh
    have : Ex.ecOf id = some s := hs
    unfold Ex.ecOf at this
    split at this <;> cases this <;> revert hh <;> revert h <;> simp [Ex.leafEC, Ex.iEC, Ex.jEC, Ex.tEC, Ex.mk]
  · intro id s hs h hh
    have : Ex.ecOf id = some s := hs
    unfold Ex.ecOf at this
    split at this <;> cases this <;> revert hh <;> revert h <;> simp [Ex.leafEC, Ex.iEC, Ex.jEC, Ex.tEC, Ex.mk]

/-! ## C65: remote responses -/

/-- A response from `iss` about `sub`, expired in 1970. -/
def Ex.remote (iss sub : String) : JWTReader := fun b =>
  if b = "r" then some ⟨"resolve-response+jwt", [("iss", .str iss), ("sub", .str sub), ("iat", .num 0), ("exp", .num 1), ("metadata", .obj [])], 0⟩
  else none

/-- **C65 fails**: whatever response a resolver sends is accepted: from any issuer, about any subject, long expired. Nothing in it is
compared with the request, and no signature is looked at. -/
theorem C65_response_checked_refuted (q : Req) (iss sub : String) :
    ∃ r, parseResolveResponse (Ex.remote iss sub) (fun _ _ v => some (some v)) q "r" = some r ∧
      AMap.get r.payload.extra "iss" = some (.str iss) ∧ AMap.get r.payload.extra "sub" = some (.str sub) ∧
      AMap.get r.payload.extra "exp" = some (.num 1) :=
  ⟨_, rfl, rfl, rfl, rfl⟩

/-- **C65** (part): a response is at least a JWT with the type of a resolve response. -/
theorem C65_response_type_partial (R : JWTReader) (dec : FieldDec) (q : Req) (body : String) (r : ResolveResp)
    (h : parseResolveResponse R dec q body = some r) : ∃ j, R body = some j ∧ j.typ = "resolve-response+jwt" := by
  unfold parseResolveResponse at h
  cases hj : R body with
  | none => rw [hj] at h; cases h
  | some j =>
    rw [hj] at h
    simp only at h
    split at h
    · cases h
    · rename_i ht; exact ⟨j, rfl, by simpa using ht⟩

/-! ## C66: the shortest chain -/

namespace Ex

/-- A federation with three chains for `l`: through `x`, `y`; through `p`, `q`, `r`; through `a`. Everybody accepts everybody. -/
def hintsOf : ID → List ID
  | "l" => ["x", "p", "a"]
  | "x" => ["y"]
  | "y" => ["t"]
  | "p" => ["q"]
  | "q" => ["r"]
  | "r" => ["t"]
  | "a" => ["t"]
  | _ => []

def W3 : World where
  start := fun id => some { mk id id (some [1]) 1 with hints := hintsOf id, metadata := some rpMeta }
  ec := fun _ id => some { mk id id (some [1]) 1 with hints := hintsOf id, metadata := some (fedMeta "f") }
  fetch := fun _ _ sub iss => some (mk iss sub (some [1]) 1)
  nowEC := fun _ => 50
  nowSub := fun _ => 50
  host := fun _ => none
  sig := sigOf

end Ex

/-- The chain of `l` over the given intermediates in `W3`. -/
def Ex.via3 : List ID → Chain
  | is =>
    { Ex.mk "l" "l" (some [1]) 1 with hints := Ex.hintsOf "l", metadata := some Ex.rpMeta } ::
      ((("l" :: is).zip (is ++ ["t"])).map (fun x => Ex.mk x.2 x.1 (some [1]) 1) ++
        [{ Ex.mk "t" "t" (some [1]) 1 with hints := Ex.hintsOf "t", metadata := some (Ex.fedMeta "f") }])

theorem Ex.run3 : Ex.req.resolver.validChains Ex.W3 8 = .ok (some [Ex.via3 ["x", "y"], Ex.via3 ["p", "q", "r"], Ex.via3 ["a"]]) := by rfl

/-- **C66 fails**: of the chains over one, two and three intermediates the one over two is used, because sorting compares stale scores. -/
theorem C66_shortest_refuted : ¬ ∀ (E : Env) (p : CallPos) (q : Req) (c : Chain) (m : Option Metadata) (cs : List Chain),
    q.resolver.validChains (E.world p) E.depth = .ok (some cs) → localChain E p q = some (.ok (c, m)) →
      ∀ c' ∈ cs, pathLen c ≤ pathLen c' := by
  intro h
  have := h { Ex.E with world := fun _ => Ex.W3, depth := 8 } [] Ex.req (Ex.via3 ["x", "y"]) _ _ Ex.run3 rfl (Ex.via3 ["a"]) (by simp)
  revert this
  decide

/-- **C66** (part): the shortest valid chain is used if there are at most two, or if they are found in order of length. Missing: other cases. -/
theorem C66_shortest_partial (E : Env) (p : CallPos) (q : Req) (c : Chain) (m : Option Metadata) (cs : List Chain)
    (hv : q.resolver.validChains (E.world p) E.depth = .ok (some cs)) (h : localChain E p q = some (.ok (c, m)))
    (hs : cs.length ≤ 2 ∨ cs.length ≤ 12 ∧ cs.Pairwise (fun a b => pathLen a ≤ pathLen b)) :
    c ∈ cs ∧ ∀ c' ∈ cs, pathLen c ≤ pathLen c' := by
  unfold localChain at h
  rw [hv] at h
  simp only at h
  split at h
  · cases h
  · rename_i hne
    have h12 : cs.length ≤ 12 := by omega
    have hsorted : (sortedByPathLen (E.swaps p) cs).Pairwise (fun a b => pathLen a ≤ pathLen b) := by
      unfold sortedByPathLen
      rw [if_pos h12]
      obtain ⟨h1, h2, _⟩ := C18_sort_ordered_partial (fun c => (pathLen c : Int)) cs
      rcases hs with hs | ⟨_, hs⟩
      · refine (h1 hs).1.imp ?_
        intro a b hab
        exact_mod_cast hab
      · rw [h2 (hs.imp (fun {a b} hab => by exact_mod_cast hab))]
        exact hs
    have hperm := sortedByPathLen_perm (E.swaps p) cs
    -- all of them have metadata, so the first is taken
    obtain ⟨cs0, _, hf⟩ := validChains_eq hv
    have hmeta : ∀ x ∈ cs, ∃ m, chainMetadata x = .ok m := fun x hx => ((filterValidMetadata_mem _ _ hf x).mp hx).2
    cases hl : sortedByPathLen (E.swaps p) cs with
    | nil =>
      rw [hl] at h
      cases h
    | cons x xs =>
      rw [hl] at h hperm hsorted
      obtain ⟨mx, hmx⟩ := hmeta x (hperm.mem_iff.mp List.mem_cons_self)
      have hc : c = x := by
        unfold firstWithMetadata at h
        rw [hmx] at h
        simp only [Option.some.injEq, Except.ok.injEq, Prod.mk.injEq] at h
        exact h.1.symm
      subst hc
      refine ⟨hperm.mem_iff.mp List.mem_cons_self, ?_⟩
      intro c' hc'
      rcases List.mem_cons.mp (hperm.mem_iff.mpr hc') with rfl | hx
      · exact Nat.le_refl _
      · exact (List.pairwise_cons.mp hsorted).1 c' hx

example : ∃ m, Ex.req.resolver.validChains (Ex.E.world []) Ex.E.depth = .ok (some [Ex.chainI, Ex.chainJ]) ∧
    localChain Ex.E [] Ex.req = some (.ok (Ex.chainI, m)) := ⟨_, rfl, rfl⟩

/-! ## C67: metadata stated by the superior -/

/-- The superior's statement says the client's name is `other`. -/
def Ex.supMeta : Metadata :=
  ⟨fun t => match t with
    | .rp => some ⟨[⟨"ClientName", "client_name", .str, .str "other"⟩], ["ClientName"], []⟩
    | _ => none, none⟩

/-- The value of a metadata attribute of a relying party. -/
def rpAttr (m : Option Metadata) (tag : String) : Option String :=
  match m with
  | none => none
  | some m => (m.known .rp).map (fun f => f.str tag)

/-- **C67 fails**: the metadata a superior states about its subordinate has no influence on the result, whatever it is, for every chain. -/
theorem C67_superior_metadata_refuted (leaf sub : Stmt) (rest : Chain) (m : Option Metadata) :
    chainMetadata (leaf :: { sub with metadata := m } :: rest) = chainMetadata (leaf :: sub :: rest) := by
  unfold chainMetadata critOk
  simp

/-- In particular here, where the name should be `other` and is `n`. -/
theorem C67_superior_name_refuted :
    ∃ r, chainMetadata [Ex.leafEC, { Ex.mk "t" "l" (some [1]) 3 with metadata := some Ex.supMeta }, Ex.tEC] = .ok r ∧
      rpAttr (some Ex.supMeta) "client_name" = some "other" ∧ rpAttr r "client_name" = some "n" := ⟨_, rfl, rfl, rfl⟩

end Oidfed
