import Verif.Spec.PrescribeSame
import Verif.Props.Possible
import Verif.Props.OwnPolicy
import Verif.Lemmas.ChainsExact
/-!
# C172: chains that prescribe the same lead to the same metadata
-/

namespace Oidfed
open Spec

theorem critOk_iff (c : Chain) : critOk c = true ↔ ∀ op, (∃ s ∈ c, op ∈ s.policyCrit) → operatorOrder.contains op = true := by
  unfold critOk
  rw [List.all_eq_true]
  constructor
  · rintro h op ⟨s, hs, ho⟩
    exact List.all_eq_true.mp (h s hs) op ho
  · intro h s hs
    exact List.all_eq_true.mpr fun op ho => h op ⟨s, hs, ho⟩

/-- **C172**: if two chains have the same metadata in the leaf and state the same policies, the result of resolving the metadata is the same, including whether it fails. Nothing
else that the statements say, and no statement without a policy, has an influence. -/
theorem C172_determined (a a' : Stmt) (c c' : Chain) (hm : a.metadata = a'.metadata) (h : PrescribeSame (a :: c) (a' :: c')) : chainMetadata (a :: c) = chainMetadata (a' :: c') := by
  obtain ⟨hl, hp, hcrit⟩ := h
  cases c with
  | nil =>
    cases c' with
    | nil => show Except.ok a.metadata = .ok a'.metadata; rw [hm]
    | cons b' c' => simp at hl
  | cons b c =>
    cases c' with
    | nil => simp at hl
    | cons b' c' =>
      have hc : critOk (a :: b :: c) = critOk (a' :: b' :: c') := by
        rw [Bool.eq_iff_iff, critOk_iff, critOk_iff]
        exact forall_congr' fun op => by rw [hcrit op]
      have hq : mergePolicies ((a :: b :: c).map Stmt.policy) = mergePolicies ((a' :: b' :: c').map Stmt.policy) := by
        unfold mergePolicies
        rw [List.filterMap_map, List.filterMap_map]
        simp only [Function.id_comp]
        rw [hp]
      unfold chainMetadata
      simp only
      rw [hc, hq, hm]

/-- **C172**: a statement above the leaf that has no policy and declares no operators critical can be left out, as long as the leaf keeps a superior. -/
theorem C172_without (a : Stmt) (c d : Chain) (s : Stmt) (hs : s.policy = none) (hcr : s.policyCrit = []) (hne : c ++ d ≠ []) :
    chainMetadata (a :: (c ++ s :: d)) = chainMetadata (a :: (c ++ d)) := by
  refine C172_determined a a _ _ rfl ⟨?_, ?_, ?_⟩
  · have : 0 < (c ++ d).length := List.length_pos_iff.mpr hne
    simp only [List.length_cons, List.length_append] at this ⊢
    omega
  · rw [List.filterMap_cons, List.filterMap_cons, List.filterMap_append, List.filterMap_append, List.filterMap_cons, hs]
  · intro op
    constructor
    · rintro ⟨x, hx, ho⟩
      simp only [List.mem_cons, List.mem_append] at hx
      rcases hx with rfl | hx | rfl | hx
      · exact ⟨_, List.mem_cons_self, ho⟩
      · exact ⟨x, by simp [hx], ho⟩
      · rw [hcr] at ho; cases ho
      · exact ⟨x, by simp [hx], ho⟩
    · rintro ⟨x, hx, ho⟩
      simp only [List.mem_cons, List.mem_append] at hx
      rcases hx with rfl | hx | hx
      · exact ⟨_, List.mem_cons_self, ho⟩
      · exact ⟨x, by simp [hx], ho⟩
      · exact ⟨x, by simp [hx], ho⟩

theorem same_leaf {W : World} {r : Resolver} {fuel : Nat} {cs : List Chain} (h : r.chainsNoMeta W fuel = .ok (some cs)) {c c' : Chain} (hc : c ∈ cs) (hc' : c' ∈ cs) :
    ∃ a d d', c = a :: d ∧ c' = a :: d' := by
  have key : ∀ c ∈ cs, ∃ s0 d, W.start r.start = some s0 ∧ c = restrictTypes r.types s0 :: d := by
    intro c hc
    obtain ⟨_, s0, h0, _, hor⟩ := (mem_run_iff h c).mp hc
    rcases hor with ⟨_, rfl⟩ | ⟨steps, _, hch⟩
    · exact ⟨s0, [], h0, rfl⟩
    · have := (chain_get hch).2.1
      cases c with
      | nil => simp at this
      | cons a d => simp at this; exact ⟨s0, d, h0, by rw [this]⟩
  obtain ⟨s, d, hs, rfl⟩ := key c hc
  obtain ⟨s', d', hs', rfl⟩ := key c' hc'
  rw [hs] at hs'
  cases hs'
  exact ⟨_, d, d', rfl, rfl⟩

/-- **C172** for the chains that are found: two of them that state the same policies lead to the same metadata. -/
theorem C172_chains (W : World) (r : Resolver) (fuel : Nat) (cs : List Chain) (h : r.chainsNoMeta W fuel = .ok (some cs)) (c c' : Chain) (hc : c ∈ cs) (hc' : c' ∈ cs)
    (hs : PrescribeSame c c') : chainMetadata c = chainMetadata c' := by
  obtain ⟨a, d, d', rfl, rfl⟩ := same_leaf h hc hc'
  exact C172_determined a a d d' rfl hs

/-- **C172** for resolving: if all valid chains state the same policies, local resolving gives the metadata of any of them, however chains of equal length come to be sorted. -/
theorem C172_resolved (E : Env) (p : CallPos) (q : Req) (n : Nat) (cs : List Chain) (h : q.resolver.validChains (E.world p) E.depth = .ok (some cs))
    (hs : ∀ c ∈ cs, ∀ c' ∈ cs, PrescribeSame c c') (c : Chain) (hc : c ∈ cs) :
    ∃ m, chainMetadata c = .ok m ∧ Default.loc.metadata E (n + 1) p q = some (.ok m) := by
  obtain ⟨d, m, hd⟩ := localChain_of h (List.ne_nil_of_mem hc)
  have hl := hd
  unfold localChain at hl
  rw [h] at hl
  simp only at hl
  rw [if_neg (by simpa using List.ne_nil_of_mem hc)] at hl
  obtain ⟨hm1, hm2⟩ := firstWithMetadata_ok (Option.some.inj hl)
  obtain ⟨cs0, h0, hf⟩ := validChains_eq h
  have hdm := (sortedByPathLen_perm (E.swaps p) cs).mem_iff.mp hm1
  refine ⟨m, ?_, ?_⟩
  · rw [← hm2]
    exact C172_chains _ _ _ _ h0 c d ((filterValidMetadata_mem _ _ hf c).mp hc).1 ((filterValidMetadata_mem _ _ hf d).mp hdm).1 (hs c hc d hdm)
  · simp only [Default.metadata, Default.resolve]
    rw [hd]
    rfl

/-- The example of C153 as an environment, and a request for its leaf. -/
def ExOP.env (sup : Option Policies) : Env := { Ex.E with world := fun _ => ExOP.world none sup none, depth := 5 }
def ExOP.request : Req := ⟨"l", ["t"], []⟩

/-- In the example federation the anchor states the same policy about both intermediates: the chains differ, prescribe the same, and the policy has an effect. -/
example : ∃ c c' sup, ExOP.request.resolver.validChains ((ExOP.env sup).world []) (ExOP.env sup).depth = .ok (some [c, c']) ∧ c ≠ c' ∧ (∀ x ∈ [c, c'], ∀ y ∈ [c, c'], PrescribeSame x y) ∧
    c.filterMap Stmt.policy ≠ [] ∧ ExOP.fields c = some [("client_name", .str ""), ("contacts", sl ["x", "a"])] := by
  have hp : ∀ (c c' : Chain), c.length = 4 → c'.length = 4 → c.filterMap Stmt.policy = c'.filterMap Stmt.policy → (∀ s ∈ c, s.policyCrit = []) →
      (∀ s ∈ c', s.policyCrit = []) → PrescribeSame c c' := by
    intro c c' h1 h2 h3 h4 h5
    refine ⟨by omega, h3, fun op => ⟨fun ⟨s, hs, ho⟩ => ?_, fun ⟨s, hs, ho⟩ => ?_⟩⟩
    · rw [h4 s hs] at ho; cases ho
    · rw [h5 s hs] at ho; cases ho
  refine ⟨_, _, ExOP.pol [("contacts", [("add", jl ["a"])])], rfl, ?_, ?_, ?_, rfl⟩
  · intro h
    have := congrArg (fun c => (c[1]?).map Stmt.iss) h
    revert this
    decide
  · intro x hx y hy
    simp only [List.mem_cons, List.not_mem_nil, or_false] at hx hy
    rcases hx with rfl | rfl <;> rcases hy with rfl | rfl <;>
      exact hp _ _ rfl rfl rfl (by intro s hs; simp only [List.mem_cons, List.not_mem_nil, or_false] at hs; rcases hs with rfl | rfl | rfl | rfl <;> rfl)
        (by intro s hs; simp only [List.mem_cons, List.not_mem_nil, or_false] at hs; rcases hs with rfl | rfl | rfl | rfl <;> rfl)
  · intro h
    cases h

/-- The statement of `i` about the leaf has no policy and can be left out. -/
example : chainMetadata (ExOP.chain none (ExOP.pol [("contacts", [("add", jl ["a"])])]) none) =
    chainMetadata ([ExOP.leaf none, { Ex.mk "t" "i" (some [2]) 3 with policy := ExOP.pol [("contacts", [("add", jl ["a"])])] }, Ex.tEC]) :=
  C172_without (ExOP.leaf none) [] _ (Ex.mk "i" "l" (some [1]) 2) rfl rfl (by simp)

end Oidfed
