import Verif.Lemmas.PolicyTwice
import Verif.Props.PolicyMerge
import Verif.Props.OwnPolicy
import Verif.Props.ComplianceChain
/-!
# C170: stating a policy again changes nothing
-/

namespace Oidfed
open Spec

/-- **C170** (part): if a statement of a chain repeats the metadata policy of another statement of the chain for an entity type, then the policies can be combined exactly if they
can be combined without the repetition, and the combined policies are the same. Missing: policies with operators that are not known (`C170_unknown_refuted`), that are not valid
themselves (`C170_invalid_refuted`), or with operands of the wrong type or empty arrays. -/
theorem C170_combined_partial (ps qs : List Policy) (q : Policy) (hps : ∀ p ∈ ps, ProperPolicy p) (hqs : ∀ p ∈ qs, ProperPolicy p) (hq : q ∈ ps) :
    (∀ m, combineAll (ps ++ qs) = .ok m → ∃ m', combineAll (ps ++ q :: qs) = .ok m' ∧ EqPolicy m m') ∧
    (∀ m', combineAll (ps ++ q :: qs) = .ok m' → ∃ m, combineAll (ps ++ qs) = .ok m ∧ EqPolicy m m') :=
  combineAll_again (fun p hp => normPolicy_of_proper (hps p hp)) (fun p hp => normPolicy_of_proper (hqs p hp)) hq

/-- **C170** (part): the metadata that resolves from a chain in which `s` repeats a policy stated before is that of the chain in which `s` states none. -/
theorem C170_metadata_partial (a b : Stmt) (pre post : Chain) (s : Stmt) (P : Policies) (hs : s.policy = some P) (hP : ∃ d ∈ a :: b :: pre, d.policy = some P)
    (hproper : ∀ d ∈ a :: b :: pre ++ s :: post, ∀ Q, d.policy = some Q → ∀ t, ProperPolicy (Q.known t)) (r r' : Metadata)
    (h : chainMetadata (a :: b :: pre ++ s :: post) = .ok (some r)) (h' : chainMetadata (a :: b :: pre ++ { s with policy := none } :: post) = .ok (some r')) (t : EType) :
    r.known t = r'.known t := by
  obtain ⟨p, md, e1, hp, hmd⟩ := chainMetadata_ok h
  obtain ⟨p', md', e2, hp', hmd'⟩ := chainMetadata_ok h'
  cases e1
  cases e2
  have k := mergePolicies_ok hp t
  have k' := mergePolicies_ok hp' t
  let F : Chain → List Policy := fun c => ((c.map Stmt.policy).filterMap id).map (fun p => p.known t)
  have hF : ∀ c d, F (c ++ d) = F c ++ F d := by intro c d; simp [F]
  have k : combineAll (F (a :: b :: pre) ++ P.known t :: F post) = .ok (p.known t) := by
    have e : F (a :: b :: pre ++ s :: post) = F (a :: b :: pre) ++ P.known t :: F post := by
      rw [hF]
      congr 1
      simp [F, hs]
    rw [← e]
    exact k
  have k' : combineAll (F (a :: b :: pre) ++ F post) = .ok (p'.known t) := by
    have e : F (a :: b :: pre ++ { s with policy := none } :: post) = F (a :: b :: pre) ++ F post := by
      rw [hF]
      congr 1
    rw [← e]
    exact k'
  have hmem : ∀ c : Chain, (∀ d ∈ c, d ∈ a :: b :: pre ++ s :: post) → ∀ q ∈ F c, ProperPolicy q := by
    intro c hc q hq
    simp only [F, List.mem_map, List.mem_filterMap, id] at hq
    obtain ⟨Q, ⟨_, ⟨d, hd, rfl⟩, hQ⟩, rfl⟩ := hq
    exact hproper d (hc d hd) Q hQ t
  have hq : P.known t ∈ F (a :: b :: pre) := by
    obtain ⟨d, hd, hdP⟩ := hP
    simp only [F, List.mem_map, List.mem_filterMap, id]
    exact ⟨P, ⟨_, ⟨d, hd, rfl⟩, hdP⟩, rfl⟩
  obtain ⟨m', hm', he⟩ := (C170_combined_partial _ _ _ (hmem _ (fun d hd => List.mem_append_left _ hd))
    (hmem _ (fun d hd => List.mem_append_right _ (List.mem_cons_of_mem _ hd))) hq).1 _ k'
  rw [k] at hm'
  cases hm'
  have e1 := (applyPolicy_ok hmd).1 t
  have e2 := (applyPolicy_ok hmd').1 t
  cases hk : (a.metadata.getD Metadata.empty).known t with
  | none => rw [e1.1 hk, e2.1 hk]
  | some em =>
    obtain ⟨x, hx, hr⟩ := e1.2 em hk
    obtain ⟨y, hy, hr'⟩ := e2.2 em hk
    rw [C25_apply_deterministic _ _ he, hx] at hy
    cases hy
    rw [hr, hr']

theorem extraTypes_again (P : Policies) (hP : P.extra = []) (B : List Policies) : ∀ A : List Policies, extraTypes (A ++ P :: B) = extraTypes (A ++ B)
  | [] => by
    show P.extra.keys ++ (extraTypes B).filter (fun k => !P.extra.keys.contains k) = extraTypes B
    rw [hP]
    simp [AMap.keys]
  | a :: A => by
    show a.extra.keys ++ (extraTypes (A ++ P :: B)).filter _ = a.extra.keys ++ (extraTypes (A ++ B)).filter _
    rw [extraTypes_again P hP B A]

theorem mergeExtra_again (P : Policies) (hP : P.extra = []) (A B : List Policies) : ∀ ks, mergeExtra (A ++ P :: B) ks = mergeExtra (A ++ B) ks
  | [] => rfl
  | k :: ks => by
    rw [mergeExtra, mergeExtra, mergeExtra_again P hP A B ks]
    have : (A ++ P :: B).filterMap (fun p => AMap.get p.extra k) = (A ++ B).filterMap (fun p => AMap.get p.extra k) := by
      rw [List.filterMap_append, List.filterMap_append, List.filterMap_cons, hP]
      rfl
    rw [this]

theorem applyKnown_eq {m : Metadata} {p q : Policies} (h : ∀ t, EqPolicy (p.known t) (q.known t)) : ∀ ts, applyKnown m p ts = applyKnown m q ts
  | [] => rfl
  | t :: ts => by
    unfold applyKnown
    cases m.known t with
    | none => simp only [applyKnown_eq h ts]
    | some em => simp only [applyKnown_eq h ts, C25_apply_deterministic _ _ (h t)]

theorem applyPolicy_eq {m : Metadata} {p q : Policies} (h : ∀ t, EqPolicy (p.known t) (q.known t)) (hx : p.extra = q.extra) :
    m.applyPolicy (some p) = m.applyPolicy (some q) := by
  unfold Metadata.applyPolicy
  simp only [applyKnown_eq h, hx]

/-- Metadata that resolves with some policies resolves to the same with policies that combine to the same. -/
theorem chainMetadata_same {a b a' b' : Stmt} {rest rest' : Chain} (hm : a.metadata = a'.metadata) (hc : critOk (a :: b :: rest) = critOk (a' :: b' :: rest'))
    (A B : List Policies) (P : Policies) (hP : P.extra = [])
    (hk : ∀ t m, combineAll ((((a :: b :: rest).map Stmt.policy).filterMap id).map (fun p => p.known t)) = .ok m →
      ∃ m', combineAll ((((a' :: b' :: rest').map Stmt.policy).filterMap id).map (fun p => p.known t)) = .ok m' ∧ EqPolicy m m')
    (hx : (((a :: b :: rest).map Stmt.policy).filterMap id = A ++ P :: B ∧ ((a' :: b' :: rest').map Stmt.policy).filterMap id = A ++ B) ∨
      (((a :: b :: rest).map Stmt.policy).filterMap id = A ++ B ∧ ((a' :: b' :: rest').map Stmt.policy).filterMap id = A ++ P :: B))
    {r : Option Metadata} (h : chainMetadata (a :: b :: rest) = .ok r) : chainMetadata (a' :: b' :: rest') = .ok r := by
  obtain ⟨p, md, rfl, hp, hmd⟩ := chainMetadata_ok h
  have hcr : critOk (a' :: b' :: rest') = true := by
    rw [← hc]
    unfold chainMetadata at h
    dsimp only at h
    split at h
    · cases h
    · rename_i hn; simpa using hn
  have hp0 := hp
  unfold mergePolicies at hp
  obtain ⟨k, hkn, hp⟩ := bind_ok hp
  obtain ⟨x, hxe, hp⟩ := bind_ok hp
  cases hp
  have hk1 := fun t => mergeKnown_ok hkn t (mem_all t)
  obtain ⟨k', hkn'⟩ := mergeKnown_of (ps := ((a' :: b' :: rest').map Stmt.policy).filterMap id) (fun t => (hk t _ (hk1 t)).imp fun _ h => h.1) EType.all
  have hk2 := fun t => mergeKnown_ok hkn' t (mem_all t)
  have hee : mergeExtra (((a' :: b' :: rest').map Stmt.policy).filterMap id) (extraTypes (((a' :: b' :: rest').map Stmt.policy).filterMap id)) = .ok x := by
    rw [← hxe]
    rcases hx with ⟨e1, e2⟩ | ⟨e1, e2⟩
    · rw [e1, e2, extraTypes_again P hP, mergeExtra_again P hP]
    · rw [e1, e2, extraTypes_again P hP, mergeExtra_again P hP]
  have hp' : mergePolicies ((a' :: b' :: rest').map Stmt.policy) = .ok ⟨k', x⟩ := by
    unfold mergePolicies
    simp only [hkn', hee, bind, Except.bind]
  have heq : ∀ t, EqPolicy (k t) (k' t) := by
    intro t
    obtain ⟨m', h1, h2⟩ := hk t _ (hk1 t)
    rw [hk2 t] at h1
    cases h1
    exact h2
  rw [hm, applyPolicy_eq (p := ⟨k, x⟩) (q := ⟨k', x⟩) heq rfl] at hmd
  unfold chainMetadata
  simp only [hcr, hp', hmd, bind, Except.bind]
  rfl

/-- **C170** (part): if in addition the repeated policy is only for the entity types of the specification, then the metadata resolves exactly if it resolves without the
repetition, to the same metadata. -/
theorem C170_resolves_partial (a b : Stmt) (pre post : Chain) (s : Stmt) (P : Policies) (hs : s.policy = some P) (hP : ∃ d ∈ a :: b :: pre, d.policy = some P)
    (hproper : ∀ d ∈ a :: b :: pre ++ s :: post, ∀ Q, d.policy = some Q → ∀ t, ProperPolicy (Q.known t)) (hx : P.extra = []) (r : Option Metadata) :
    chainMetadata (a :: b :: pre ++ s :: post) = .ok r ↔ chainMetadata (a :: b :: pre ++ { s with policy := none } :: post) = .ok r := by
  let G : Chain → List Policies := fun c => (c.map Stmt.policy).filterMap id
  have hG : ∀ c d, G (c ++ d) = G c ++ G d := by intro c d; simp [G]
  have e1 : G (a :: b :: pre ++ s :: post) = G (a :: b :: pre) ++ P :: G post := by
    rw [hG]
    congr 1
    simp [G, hs]
  have e2 : G (a :: b :: pre ++ { s with policy := none } :: post) = G (a :: b :: pre) ++ G post := by
    rw [hG]
    congr 1
  have hmem : ∀ t, ∀ c : Chain, (∀ d ∈ c, d ∈ a :: b :: pre ++ s :: post) → ∀ q ∈ (G c).map (fun p => p.known t), ProperPolicy q := by
    intro t c hc q hq
    simp only [G, List.mem_map, List.mem_filterMap, id] at hq
    obtain ⟨Q, ⟨_, ⟨d, hd, rfl⟩, hQ⟩, rfl⟩ := hq
    exact hproper d (hc d hd) Q hQ t
  have hq : ∀ t, P.known t ∈ (G (a :: b :: pre)).map (fun p => p.known t) := by
    intro t
    obtain ⟨d, hd, hdP⟩ := hP
    simp only [G, List.mem_map, List.mem_filterMap, id]
    exact ⟨P, ⟨_, ⟨d, hd, rfl⟩, hdP⟩, rfl⟩
  have hcr : critOk (a :: b :: pre ++ s :: post) = critOk (a :: b :: pre ++ { s with policy := none } :: post) := by
    simp [critOk, List.all_append, List.all_cons]
  have key := fun t => C170_combined_partial _ _ _ (hmem t _ (fun d hd => List.mem_append_left _ hd))
    (hmem t _ (fun d hd => List.mem_append_right _ (List.mem_cons_of_mem _ hd))) (hq t)
  constructor
  · refine chainMetadata_same rfl hcr (G (a :: b :: pre)) (G post) P hx (fun t m hm => ?_) (.inl ⟨e1, e2⟩)
    have hm : combineAll ((G (a :: b :: pre ++ s :: post)).map (fun p => p.known t)) = .ok m := hm
    rw [e1, List.map_append, List.map_cons] at hm
    obtain ⟨m', h1, h2⟩ := (key t).2 m hm
    refine ⟨m', ?_, h2.symm⟩
    show combineAll ((G (a :: b :: pre ++ { s with policy := none } :: post)).map (fun p => p.known t)) = .ok m'
    rw [e2, List.map_append]
    exact h1
  · refine chainMetadata_same rfl hcr.symm (G (a :: b :: pre)) (G post) P hx (fun t m hm => ?_) (.inr ⟨e2, e1⟩)
    have hm : combineAll ((G (a :: b :: pre ++ { s with policy := none } :: post)).map (fun p => p.known t)) = .ok m := hm
    rw [e2, List.map_append] at hm
    obtain ⟨m', h1, h2⟩ := (key t).1 m hm
    refine ⟨m', ?_, h2⟩
    show combineAll ((G (a :: b :: pre ++ s :: post)).map (fun p => p.known t)) = .ok m'
    rw [e1, List.map_append, List.map_cons]
    exact h1

/-- **C170**, full statement, fails: an operator the library does not know makes a policy that is stated twice disappear. Here an attribute that was required is not required
any more. -/
theorem C170_unknown_refuted : ∃ (p : Policy) (e : Entry), Policy.verify p = .ok () ∧ p = [("client_name", e)] ∧ combineAll [p] = .ok p ∧
    e.applyTo (.str "") false = .error .error ∧ combineAll [p, p] = .ok [("client_name", [])] ∧ Entry.applyTo [] (.str "") false = .ok (.str "") :=
  ⟨_, [("essential", .bool true), ("x_new", .bool true)], rfl, rfl, rfl, rfl, rfl, rfl⟩

/-- **C170**, full statement, fails: below a superior that states an empty policy, a policy that is not valid is accepted, but not if it is stated twice. -/
theorem C170_invalid_refuted : ∃ p : Policy, Policy.verify p ≠ .ok () ∧ combineAll [[], p] = .ok p ∧ ∀ m, combineAll [[], p, p] ≠ .ok m := by
  refine ⟨[("scopes", [("one_of", jl ["a"]), ("add", jl ["a"])])], ?_, rfl, ?_⟩
  · intro h; cases h
  · intro m h; cases h

/-- A policy as it is usual. -/
def Ex.twicePol : Policy := [("contacts", [("subset_of", jl ["x", "y"]), ("essential", .bool true)])]

theorem Ex.twicePol_proper : ProperPolicy Ex.twicePol := by
  have key : ∀ k e, AMap.get Ex.twicePol k = some e → e = [("subset_of", jl ["x", "y"]), ("essential", .bool true)] := by
    intro k e h
    simp only [Ex.twicePol, AMap.get] at h
    split at h
    · exact (Option.some.inj h).symm
    · cases h
  have get : ∀ op v, AMap.get ([("subset_of", jl ["x", "y"]), ("essential", .bool true)] : Entry) op = some v →
      (op = "subset_of" ∧ v = jl ["x", "y"]) ∨ (op = "essential" ∧ v = .bool true) := by
    intro op v h
    simp only [AMap.get] at h
    split at h
    · rename_i e; exact .inl ⟨e.symm, (Option.some.inj h).symm⟩
    · split at h
      · rename_i e; exact .inr ⟨e.symm, (Option.some.inj h).symm⟩
      · cases h
  refine ⟨⟨by unfold AMap.WF; decide, ?_⟩, rfl, ?_, ?_⟩
  · intro k e h
    rw [key k e h]
    refine ⟨by unfold AMap.WF; decide, ?_⟩
    rintro n ⟨v, hv⟩
    rcases get n v hv with ⟨rfl, _⟩ | ⟨rfl, _⟩ <;> (unfold Known; simp)
  · intro k e op v h _ hv
    rw [key k e h] at hv
    rcases get op v hv with ⟨rfl, rfl⟩ | ⟨rfl, _⟩
    · exact .inr ⟨_, _, rfl⟩
    · rename_i hop; exact absurd hop (by decide)
  · intro k e v h hv
    rw [key k e h] at hv
    rcases get _ v hv with ⟨h, _⟩ | ⟨_, rfl⟩
    · exact absurd h (by decide)
    · exact ⟨_, rfl⟩

theorem Ex.noPolicy_proper : ProperPolicy [] :=
  ⟨⟨by unfold AMap.WF; decide, fun _ _ h => by cases h⟩, rfl, fun _ _ _ _ h => (by cases h), fun _ _ _ h => by cases h⟩

/-- The policy is stated by the anchor about the intermediate, and again in the anchor's own configuration. -/
example : (∃ P, ExOP.pol Ex.twicePol = some P ∧ P.extra = [] ∧ ∀ t, ProperPolicy (P.known t)) ∧
    (∃ r, chainMetadata (ExOP.chain none (ExOP.pol Ex.twicePol) (ExOP.pol Ex.twicePol)) = .ok (some r)) ∧
    (∃ r, chainMetadata (ExOP.chain none (ExOP.pol Ex.twicePol) none) = .ok (some r)) ∧
    ExOP.fields (ExOP.chain none (ExOP.pol Ex.twicePol) none) = some [("client_name", .str ""), ("contacts", sl ["x"])] := by
  refine ⟨⟨_, rfl, rfl, fun t => ?_⟩, ⟨_, rfl⟩, ⟨_, rfl⟩, rfl⟩
  show ProperPolicy (if t = EType.rp then Ex.twicePol else [])
  split
  · exact Ex.twicePol_proper
  · exact Ex.noPolicy_proper

end Oidfed
