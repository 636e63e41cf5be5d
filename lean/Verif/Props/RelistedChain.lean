import Verif.Spec.RelistedChain
import Verif.Props.Relisted
import Verif.Props.PrescribeSame
import Verif.Props.OperatedMeta
import Verif.Props.ComplianceChain
import Verif.Props.OwnPolicy
/-!
# C174 for chains
-/

namespace Oidfed
open Spec

theorem applyKnown_exists {m : Metadata} {p p' : Policies} (h : ∀ t em, m.known t = some em → (∃ r, em.apply (p.known t) = .ok r) → ∃ s, em.apply (p'.known t) = .ok s) :
    ∀ {ts : List EType} {r : EType → Option EntityMeta}, applyKnown m p ts = .ok r → ∃ s, applyKnown m p' ts = .ok s := by
  intro ts
  induction ts with
  | nil => intro r _; exact ⟨_, rfl⟩
  | cons t ts ih =>
    intro r hr
    rw [applyKnown] at hr ⊢
    cases hm : m.known t with
    | none =>
      rw [hm] at hr
      obtain ⟨r1, h1, _⟩ := bind_ok hr
      obtain ⟨s1, h2⟩ := ih h1
      simp only
      rw [h2]
      exact ⟨_, rfl⟩
    | some em =>
      rw [hm] at hr
      obtain ⟨e1, h0, hr⟩ := bind_ok hr
      obtain ⟨r1, h1, _⟩ := bind_ok hr
      obtain ⟨s1, h2⟩ := ih h1
      obtain ⟨e2, h3⟩ := h t em hm ⟨e1, h0⟩
      simp only
      rw [h3]
      show ∃ s, (applyKnown m p' ts >>= _) = .ok s
      rw [h2]
      exact ⟨_, rfl⟩

theorem extraTypes_empty : ∀ {ps : List Policies}, (∀ p ∈ ps, p.extra = []) → extraTypes ps = []
  | [], _ => rfl
  | p :: ps, h => by
    rw [extraTypes, h p List.mem_cons_self, extraTypes_empty fun q hq => h q (List.mem_cons_of_mem _ hq)]
    rfl

/-- **C174** for chains (part): if the superiors state the same ordinary policies in another order, metadata that resolves over one chain resolves over the other, and to the same attributes up to the order and number of
the elements of lists. Missing: the cases named at `C174_order_partial`, and policies for entity types that the library does not know. -/
theorem C174_chain_partial (a a' : Stmt) (c c' : Chain) (hm : a.metadata = a'.metadata) (h : PrescribePermuted (a :: c) (a' :: c')) (ho : OrdinaryChain (a :: c))
    (hx : ∀ md t em, a.metadata = some md → md.known t = some em → ∀ f ∈ em.fields, f.tag = "-" → f.ty = .obj) :
    ∀ m, chainMetadata (a :: c) = .ok (some m) → ∃ m', chainMetadata (a' :: c') = .ok (some m') ∧ SameUpToOrder m m' := by
  obtain ⟨⟨hl, hl'⟩, hperm, hcrit⟩ := h
  obtain ⟨hord, hflat, hkind, hne⟩ := ho
  cases c with
  | nil => simp at hl
  | cons b c =>
    cases c' with
    | nil => simp at hl'
    | cons b' c' =>
      intro m hr
      obtain ⟨p, md, hmd, hp, ha⟩ := chainMetadata_ok hr
      cases hmd
      have hcr : critOk (a' :: b' :: c') = true := by
        rw [critOk_iff]
        intro op hop
        refine (critOk_iff (a :: b :: c)).mp ?_ op ((hcrit op).mpr hop)
        unfold chainMetadata at hr
        dsimp only at hr
        split at hr
        · cases hr
        · rename_i hn; simpa using hn
      have hfm : ∀ d : Chain, (d.map Stmt.policy).filterMap id = d.filterMap Stmt.policy := by
        intro d
        rw [List.filterMap_map]
        rfl
      generalize hP : (a :: b :: c).filterMap Stmt.policy = P at *
      generalize hQ : (a' :: b' :: c').filterMap Stmt.policy = Q at *
      have order := fun t => C174_order_partial (P.map fun p => p.known t) (Q.map fun p => p.known t) (hperm.map _)
        (by simpa using fun p hp => hord p hp t) (by simpa using fun p hp => hflat p hp t) (hkind t)
      -- the merged policies
      unfold mergePolicies at hp
      rw [hfm, hP] at hp
      obtain ⟨k, hk, hp⟩ := bind_ok hp
      obtain ⟨x, hxe, hp⟩ := bind_ok hp
      cases hp
      have hk1 := fun t => mergeKnown_ok hk t (mem_all t)
      rw [extraTypes_empty hne] at hxe
      cases hxe
      have hany : ∀ t, ∃ m, combineAll (Q.map fun p => p.known t) = .ok m := by
        intro t
        have := combineAll_perm (hperm.map fun p => p.known t) (by simpa using fun p hp => ordPolicy_of (hord p hp t)) (hk1 t)
        obtain ⟨m', h', _⟩ := this
        exact ⟨m', h'⟩
      obtain ⟨k', hk'⟩ := mergeKnown_of hany EType.all
      have hk2 := fun t => mergeKnown_ok hk' t (mem_all t)
      have hmerge : mergePolicies ((a' :: b' :: c').map Stmt.policy) = .ok ⟨k', []⟩ := by
        unfold mergePolicies
        rw [hfm, hQ]
        show (mergeKnown Q EType.all >>= _) = _
        rw [hk']
        show (mergeExtra Q (extraTypes Q) >>= _) = _
        rw [extraTypes_empty fun q hq => hne q (hperm.mem_iff.mpr hq)]
        rfl
      -- what they give
      have ha0 := ha
      unfold Metadata.applyPolicy at ha0
      obtain ⟨r, hr1, ha0⟩ := bind_ok ha0
      obtain ⟨s, hs⟩ := applyKnown_exists (p' := ⟨k', []⟩) (fun t em _ hex => by
        obtain ⟨r, hr⟩ := hex
        obtain ⟨m1, s, h1, h2⟩ := (order t em).1.mp ⟨k t, r, hk1 t, hr⟩
        cases h1.symm.trans (hk2 t)
        exact ⟨s, h2⟩) hr1
      have ha' : ∃ m', (a.metadata.getD Metadata.empty).applyPolicy (some ⟨k', []⟩) = .ok m' ∧ m'.extra = m.extra := by
        unfold Metadata.applyPolicy
        show ∃ m', (applyKnown _ _ _ >>= _) = _ ∧ _
        rw [hs]
        show ∃ m', (applyExtra [] _ >>= _) = _ ∧ _
        obtain ⟨y, hy, ha0⟩ := bind_ok ha0
        rw [hy]
        cases ha0
        exact ⟨_, rfl, rfl⟩
      obtain ⟨m', ha', hex⟩ := ha'
      refine ⟨m', ?_, ?_, hex⟩
      · unfold chainMetadata
        simp only
        rw [hcr, hmerge, ← hm]
        show ((a.metadata.getD Metadata.empty).applyPolicy (some ⟨k', []⟩) >>= _) = _
        rw [ha']
        rfl
      · intro t
        obtain ⟨h1, _⟩ := applyPolicy_ok ha
        obtain ⟨h2, _⟩ := applyPolicy_ok ha'
        cases hem : (a.metadata.getD Metadata.empty).known t with
        | none =>
          rw [(h1 t).1 hem, (h2 t).1 hem]
          exact .none
        | some em =>
          obtain ⟨e1, g1, g2⟩ := (h1 t).2 em hem
          obtain ⟨e2, g3, g4⟩ := (h2 t).2 em hem
          rw [g2, g4]
          obtain ⟨j1, j2, j3⟩ := (order t em).2 _ _ e1 e2 (hk1 t) (hk2 t) g1 g3
          refine .some ⟨j1, j2, j3 ?_⟩
          cases hmd : a.metadata with
          | none => rw [hmd] at hem; cases hem
          | some md => rw [hmd] at hem; exact hx md t em hmd hem

/-- **C174** for the chains that are found (part): two chains from an entity to its trust anchors over which the same ordinary policies apply, in whatever order the superiors state them,
lead to the same metadata up to the order and number of the elements of lists. What is missing is named at `C174_chain_partial`. -/
theorem C174_found_partial (W : World) (r : Resolver) (fuel : Nat) (cs : List Chain) (h : r.chainsNoMeta W fuel = .ok (some cs)) (c c' : Chain) (hc : c ∈ cs) (hc' : c' ∈ cs)
    (hs : PrescribePermuted c c') (ho : OrdinaryChain c)
    (hx : ∀ a md t em, c.head? = some a → a.metadata = some md → md.known t = some em → ∀ f ∈ em.fields, f.tag = "-" → f.ty = .obj) :
    ∀ m, chainMetadata c = .ok (some m) → ∃ m', chainMetadata c' = .ok (some m') ∧ SameUpToOrder m m' := by
  obtain ⟨a, d, d', rfl, rfl⟩ := same_leaf h hc hc'
  exact C174_chain_partial a a d d' rfl hs ho fun md t em => hx a md t em rfl

theorem ordinary_nil : OrdinaryPolicy [] :=
  ⟨⟨by unfold AMap.WF; decide, fun _ _ h => (by cases h)⟩, rfl, fun _ _ _ _ h => (by cases h), fun _ _ _ h => (by cases h)⟩

/-- The second and the fourth of the policies in `Ex.orderPols`. -/
def Ex.orderSup : Policy := [("contacts", [("add", jl ["b"]), ("subset_of", jl ["c", "b"])])]
def Ex.orderTop : Policy := [("contacts", [("add", jl ["c"])])]

/-- Two superiors' policies in two orders: the chains are ordinary, and the contacts come in two orders. -/
example : PrescribePermuted (ExOP.chain none (ExOP.pol Ex.orderSup) (ExOP.pol Ex.orderTop)) (ExOP.chain none (ExOP.pol Ex.orderTop) (ExOP.pol Ex.orderSup)) ∧
    OrdinaryChain (ExOP.chain none (ExOP.pol Ex.orderSup) (ExOP.pol Ex.orderTop)) ∧
    ExOP.fields (ExOP.chain none (ExOP.pol Ex.orderSup) (ExOP.pol Ex.orderTop)) = some [("client_name", .str ""), ("contacts", sl ["b", "c"])] ∧
    ExOP.fields (ExOP.chain none (ExOP.pol Ex.orderTop) (ExOP.pol Ex.orderSup)) = some [("client_name", .str ""), ("contacts", sl ["c", "b"])] := by
  have h1 : OrdinaryPolicy Ex.orderSup := Ex.orderPols_ordinary _ (by simp [Ex.orderPols, Ex.orderSup])
  have h2 : OrdinaryPolicy Ex.orderTop := Ex.orderPols_ordinary _ (by simp [Ex.orderPols, Ex.orderTop])
  have mem : ∀ P ∈ (ExOP.chain none (ExOP.pol Ex.orderSup) (ExOP.pol Ex.orderTop)).filterMap Stmt.policy, P.extra = [] ∧ ∀ t, P.known t = Ex.orderSup ∨ P.known t = Ex.orderTop ∨ P.known t = [] := by
    intro P hP
    have hP : P ∈ [(⟨fun t => if t = .rp then Ex.orderSup else [], []⟩ : Policies), ⟨fun t => if t = .rp then Ex.orderTop else [], []⟩] := hP
    simp only [List.mem_cons, List.not_mem_nil, or_false] at hP
    rcases hP with rfl | rfl
    · refine ⟨rfl, fun t => ?_⟩
      by_cases h : t = .rp <;> simp [h]
    · refine ⟨rfl, fun t => ?_⟩
      by_cases h : t = .rp <;> simp [h]
  have ops : ∀ p : Policy, p = Ex.orderSup ∨ p = Ex.orderTop ∨ p = [] → ∀ k e op v, AMap.get p k = some e → AMap.get e op = some v → op = "add" ∨ op = "subset_of" := by
    intro p hp k e op v hk hv
    have hm := get_mem hk
    have hv := get_mem hv
    rcases hp with rfl | rfl | rfl
    · simp only [Ex.orderSup, List.mem_cons, List.not_mem_nil, or_false, Prod.mk.injEq] at hm
      obtain ⟨_, rfl⟩ := hm
      simp only [List.mem_cons, List.not_mem_nil, or_false, Prod.mk.injEq] at hv
      exact hv.imp And.left And.left
    · simp only [Ex.orderTop, List.mem_cons, List.not_mem_nil, or_false, Prod.mk.injEq] at hm
      obtain ⟨_, rfl⟩ := hm
      simp only [List.mem_cons, List.not_mem_nil, or_false, Prod.mk.injEq] at hv
      exact .inl hv.1
    · cases hk
  refine ⟨⟨by decide, .swap _ _ _, fun op => ?_⟩, ⟨?_, ?_, ?_, fun P hP => (mem P hP).1⟩, rfl, rfl⟩
  · constructor <;>
    · rintro ⟨s, hs, ho⟩
      simp only [ExOP.chain, List.mem_cons, List.not_mem_nil, or_false] at hs
      rcases hs with rfl | rfl | rfl | rfl <;> cases ho
  · intro P hP t
    rcases (mem P hP).2 t with h | h | h <;> rw [h]
    · exact h1
    · exact h2
    · exact ordinary_nil
  · intro P hP t k e s hk hs
    have := ops _ ((mem P hP).2 t) k e _ s hk hs
    simp at this
  · intro t p hp q hq k a b op x y ha hb hop hxx
    obtain ⟨P, hP, rfl⟩ := List.mem_map.mp hp
    have := ops _ ((mem P hP).2 t) k a op x ha hxx
    rcases hop with rfl | rfl <;> simp at this

end Oidfed
