import Verif.Props.MetaResolver
import Verif.Model.Login
/-!
# C171: asking whether an entity can be resolved agrees with resolving it
-/

namespace Oidfed
open Spec

theorem firstWithMetadata_found : ∀ {cs : List Chain}, cs ≠ [] → (∀ c ∈ cs, ∃ m, chainMetadata c = .ok m) → ∃ c m, firstWithMetadata cs = .ok (c, m) := by
  intro cs hne h
  cases cs with
  | nil => exact absurd rfl hne
  | cons c cs =>
    obtain ⟨m, hm⟩ := h c List.mem_cons_self
    exact ⟨c, m, by unfold firstWithMetadata; rw [hm]⟩

theorem localChain_of {E : Env} {p : CallPos} {q : Req} {cs : List Chain} (hv : q.resolver.validChains (E.world p) E.depth = .ok (some cs)) (hne : cs ≠ []) :
    ∃ c m, localChain E p q = some (.ok (c, m)) := by
  obtain ⟨cs0, _, h2⟩ := validChains_eq hv
  have hperm := sortedByPathLen_perm (E.swaps p) cs
  obtain ⟨c, m, h⟩ := firstWithMetadata_found (cs := sortedByPathLen (E.swaps p) cs) (fun e => hne (List.Perm.nil_eq (e ▸ hperm)).symm)
    (fun c hc => ((filterValidMetadata_mem _ _ h2 c).mp (hperm.mem_iff.mp hc)).2)
  refine ⟨c, m, ?_⟩
  unfold localChain
  rw [hv]
  simp only
  rw [if_neg (by simpa using hne), h]

/-- **C171** for the local resolver: it says that the entity can be resolved exactly if resolving it succeeds; if it says that the entity cannot be resolved, resolving it
fails; and it says one of the two. -/
theorem C171_local (E : Env) (p : CallPos) (q : Req) (n : Nat) :
    (localPossible E p q = some (.ok (true, false)) ↔ ∃ m, Default.loc.metadata E (n + 1) p q = some (.ok m)) ∧
    (localPossible E p q = some (.ok (false, true)) → Default.loc.metadata E (n + 1) p q = some (.error .error)) ∧
    (∀ a b, localPossible E p q = some (.ok (a, b)) → b = !a) := by
  have hmeta : ∀ r, localChain E p q = r → Default.loc.metadata E (n + 1) p q = r.map (fun x => x.map Prod.snd) := by
    intro r hr
    simp only [Default.metadata, Default.resolve]
    rw [hr]
    cases r with
    | none => rfl
    | some r => cases r <;> rfl
  cases hv : q.resolver.validChains (E.world p) E.depth with
  | error f =>
    have h1 : localPossible E p q = some (.error f) := by unfold localPossible; rw [hv]
    have h2 : localChain E p q = some (.error f) := by unfold localChain; rw [hv]
    rw [h1, hmeta _ h2]
    refine ⟨⟨fun h => (by cases h), fun ⟨m, h⟩ => (by cases h)⟩, fun h => (by cases h), fun a b h => (by cases h)⟩
  | ok o =>
    cases o with
    | none =>
      have h1 : localPossible E p q = none := by unfold localPossible; rw [hv]
      have h2 : localChain E p q = none := by unfold localChain; rw [hv]
      rw [h1, hmeta _ h2]
      refine ⟨⟨fun h => (by cases h), fun ⟨m, h⟩ => (by cases h)⟩, fun h => (by cases h), fun a b h => (by cases h)⟩
    | some cs =>
      have h1 : localPossible E p q = some (.ok (!cs.isEmpty, cs.isEmpty)) := by unfold localPossible; rw [hv]
      rw [h1]
      cases cs with
      | nil =>
        have h2 : localChain E p q = some (.error .error) := by unfold localChain; rw [hv]; rfl
        rw [hmeta _ h2]
        refine ⟨⟨fun h => (by cases h), fun ⟨m, h⟩ => (by cases h)⟩, fun _ => rfl, fun a b h => (by cases h; rfl)⟩
      | cons c cs =>
        obtain ⟨d, m, h2⟩ := localChain_of hv (List.cons_ne_nil c cs)
        rw [hmeta _ h2]
        refine ⟨⟨fun _ => ⟨m, rfl⟩, fun _ => rfl⟩, fun h => (by cases h), fun a b h => (by cases h; rfl)⟩

/-- **C171** (part) for a remote resolver: if resolving succeeds with an answer, that answer counts as a confirmation; an answer that counts as a refusal makes resolving fail;
and an answer that counts as a confirmation makes resolving succeed unless it is the error `invalid_metadata`. Missing: that error (`C171_remote_refuted`). -/
theorem C171_remote_partial (x : HttpAnswer) :
    ((∃ r, simplePayload x = .ok r) → simplePossible x = (true, false)) ∧
    ((simplePossible x).2 = true → ∀ r, simplePayload x ≠ .ok r) ∧
    (x ≠ .errorCode "invalid_metadata" → (simplePossible x).1 = true → ∃ r, simplePayload x = .ok r) := by
  cases x with
  | failed => exact ⟨fun ⟨_, h⟩ => (by cases h), fun _ _ h => (by cases h), fun _ h => (by cases h)⟩
  | errorCode c =>
    refine ⟨fun ⟨_, h⟩ => (by cases h), fun _ _ h => (by cases h), fun hne h => ?_⟩
    rcases (simple_valid_iff _).mp h with ⟨r, hr⟩ | hr
    · cases hr
    · exact absurd hr hne
  | body o =>
    cases o with
    | none => exact ⟨fun ⟨_, h⟩ => (by cases h), fun _ _ h => (by cases h), fun _ h => (by cases h)⟩
    | some r => exact ⟨fun _ => rfl, fun h => (by cases h), fun _ _ => ⟨r, rfl⟩⟩

/-- **C171** fails for a remote resolver: with the error `invalid_metadata` the entity counts as resolvable although resolving it fails. -/
theorem C171_remote_refuted : ¬ ∀ x, (simplePossible x).1 = true → ∃ r, simplePayload x = .ok r := by
  intro h
  obtain ⟨r, hr⟩ := h (.errorCode "invalid_metadata") rfl
  cases hr

/-- An anchor with a resolve endpoint. -/
def Ex.resolvingAnchor : Stmt :=
  { Ex.tEC with metadata := some ⟨fun t => if t = .fed then some ⟨[⟨"FederationResolveEndpoint", "federation_resolve_endpoint", .str, .str "t/resolve"⟩], [], []⟩ else none, none⟩ }

/-- **C171** fails for the smart resolver: if an anchor's endpoint does not answer, the entity is said to be confirmed invalid, although resolving it succeeds. -/
theorem C171_smart_refuted : ∃ (E : Env) (q : Req) (m : Option Metadata), EndpointSays E [] q 0 .failed ∧ smartPossible E [] q = some (.ok (false, true)) ∧
    Default.smart.metadata E 2 [] q = some (.ok m) :=
  ⟨{ Ex.E with anchorEC := fun _ _ _ => some Ex.resolvingAnchor }, Ex.req, _, ⟨"t", Ex.resolvingAnchor, rfl, rfl, by decide, rfl⟩, rfl, rfl⟩

theorem first_such (P : Nat → Prop) : ∀ n, P n → ∃ m, P m ∧ ∀ k, k < m → ¬ P k := by
  intro n
  induction n using Nat.strongRecOn with
  | _ n ih =>
    intro hn
    by_cases h : ∃ k, k < n ∧ P k
    · obtain ⟨k, hk, hp⟩ := h
      exact ih k hk hp
    · exact ⟨n, hn, fun k hk hp => h ⟨k, hk, hp⟩⟩

/-- **C171** (part) for the smart resolver: if no endpoint fails, refuses the entity or complains about its metadata, it says that the entity can be resolved exactly if an
endpoint gives a response or local resolving succeeds; and if it says that the entity cannot be resolved, neither is the case. Missing: the other answers
(`C171_smart_refuted`). -/
theorem C171_smart_partial (E : Env) (p : CallPos) (q : Req) (n : Nat)
    (h : ∀ i x, EndpointSays E p q i x → ¬ SaysInvalid x ∧ ¬ NoAnswer x ∧ x ≠ .errorCode "invalid_metadata") :
    (smartPossible E p q = some (.ok (true, false)) ↔
      (∃ i r, EndpointSays E p q i (.body (some r))) ∨ ∃ m, Default.loc.metadata E (n + 1) p q = some (.ok m)) ∧
    (smartPossible E p q = some (.ok (false, true)) →
      (¬ ∃ i r, EndpointSays E p q i (.body (some r))) ∧ Default.loc.metadata E (n + 1) p q = some (.error .error)) := by
  obtain ⟨h1, h2⟩ := C53_smart_partial E p q
  obtain ⟨l1, l2, _⟩ := C171_local E p q n
  constructor
  · rw [h1, l1]
    constructor
    · rintro (⟨i, x, hx, hv, _⟩ | ⟨_, hl⟩)
      · rcases hv with ⟨r, rfl⟩ | hv
        · exact .inl ⟨i, r, hx⟩
        · exact absurd hv (h i x hx).2.2
      · exact .inr hl
    · intro hor
      by_cases hb : ∃ i, ∃ x, EndpointSays E p q i x ∧ SaysValid x
      · obtain ⟨i, hi⟩ := hb
        obtain ⟨k, ⟨x, hx, hv⟩, hk⟩ := first_such (fun i => ∃ x, EndpointSays E p q i x ∧ SaysValid x) i hi
        exact .inl ⟨k, x, hx, hv, fun k' x' hlt hx' => ⟨fun hv' => hk k' hlt ⟨x', hx', hv'⟩, (h k' x' hx').1, (h k' x' hx').2.1⟩⟩
      · rcases hor with ⟨i, r, hi⟩ | hl
        · exact absurd ⟨i, _, hi, .inl ⟨r, rfl⟩⟩ hb
        · exact .inr ⟨fun i x hx => ⟨fun hv => hb ⟨i, x, hx, hv⟩, (h i x hx).1, (h i x hx).2.1⟩, hl⟩
  · intro hs
    rcases h2.mp hs with ⟨i, x, hx, hv, _⟩ | ⟨hall, hl⟩
    · rcases hv with hv | hv
      · exact absurd hv (h i x hx).1
      · exact absurd hv (h i x hx).2.1
    · exact ⟨fun ⟨i, r, hi⟩ => (hall i _ hi).1 (.inl ⟨r, rfl⟩), l2 hl⟩

/-- The local resolver says both: the example's entity can be resolved, and one whose server cannot be reached cannot. -/
example : localPossible Ex.E [] Ex.req = some (.ok (true, false)) ∧
    localPossible { Ex.E with world := fun _ => { Ex.W with start := fun _ => none } } [] Ex.req = some (.ok (false, true)) := ⟨rfl, rfl⟩

/-- A remote answer of each kind. -/
example : simplePossible (.body (some ⟨none, [], []⟩)) = (true, false) ∧ (simplePossible (.errorCode "invalid_trust_chain")).2 = true := ⟨rfl, rfl⟩

/-- An endpoint which says that it does not know the subject leaves the decision to local resolving. -/
example : ∃ E : Env, EndpointSays E [] Ex.req 0 (.errorCode "invalid_subject") ∧
    (∀ i x, EndpointSays E [] Ex.req i x → ¬ SaysInvalid x ∧ ¬ NoAnswer x ∧ x ≠ .errorCode "invalid_metadata") ∧
    smartPossible E [] Ex.req = some (.ok (true, false)) := by
  refine ⟨{ Ex.E with anchorEC := fun _ _ _ => some Ex.resolvingAnchor, http := fun _ _ _ _ => .errorCode "invalid_subject" },
    ⟨"t", Ex.resolvingAnchor, rfl, rfl, by decide, rfl⟩, ?_, rfl⟩
  rintro i x ⟨a, ec, _, _, _, rfl⟩
  exact ⟨fun h => absurd h (by simp [SaysInvalid]), fun h => absurd h (by simp [NoAnswer]), by simp⟩

end Oidfed
