import Verif.Props.PrescribeSame
import Verif.Props.PolicyTwice
/-!
# C173: stating an empty policy is like stating none
-/

namespace Oidfed
open Spec

/-- The policy of a statement whose `metadata_policy` is an empty object. -/
def emptyPolicies : Policies := ⟨fun _ => [], []⟩

theorem combineAll_empty {ps qs : List Policy} (h : ∀ p ∈ ps ++ qs, Policy.verify p = .ok ()) : combineAll (ps ++ [] :: qs) = combineAll (ps ++ qs) := by
  cases ps with
  | nil =>
    cases qs with
    | nil => rfl
    | cons q qs =>
      have hq := h q List.mem_cons_self
      show (Policy.verify []).bind (fun _ => (combinePolicy [] q).bind (fun m => combineRest m qs)) = (Policy.verify q).bind (fun _ => combineRest q qs)
      rw [hq]
      have : combinePolicy [] q = .ok q := by
        unfold combinePolicy
        cases q <;> rfl
      rw [this]
      rfl
  | cons p ps =>
    rw [combineAll_cons_append, combineAll_cons_append]
    cases combineAll (p :: ps) with
    | error f => rfl
    | ok m =>
      show (combinePolicy m []).bind (fun m => combineRest m qs) = combineRest m qs
      rfl

theorem mergeKnown_empty {A B : List Policies} (h : ∀ P ∈ A ++ B, ∀ t, Policy.verify (P.known t) = .ok ()) : ∀ ts, mergeKnown (A ++ emptyPolicies :: B) ts = mergeKnown (A ++ B) ts
  | [] => rfl
  | t :: ts => by
    unfold mergeKnown
    rw [mergeKnown_empty h ts, List.map_append, List.map_cons, List.map_append]
    have := combineAll_empty (ps := A.map (fun p => p.known t)) (qs := B.map (fun p => p.known t)) (by
      intro p hp
      rw [← List.map_append] at hp
      obtain ⟨P, hP, rfl⟩ := List.mem_map.mp hp
      exact h P hP t)
    rw [show emptyPolicies.known t = [] from rfl, this]

/-- **C173** (part): if the policies of the chain are valid, a statement with an empty policy has the same effect as one without. Missing: policies that are not valid themselves
(`C173_leaf_refuted`). -/
theorem C173_empty_partial (c d : Chain) (s : Stmt) (hs : s.policy = some ⟨fun _ => [], []⟩)
    (hv : ∀ x ∈ c ++ d, ∀ P, x.policy = some P → ∀ t, Policy.verify (P.known t) = .ok ()) :
    chainMetadata (c ++ s :: d) = chainMetadata (c ++ { s with policy := none } :: d) := by
  let G : Chain → List Policies := fun c => (c.map Stmt.policy).filterMap id
  have hG : ∀ c d, G (c ++ d) = G c ++ G d := by intro c d; simp [G]
  have e1 : G (c ++ s :: d) = G c ++ emptyPolicies :: G d := by
    rw [hG]
    congr 1
    simp [G, hs, emptyPolicies]
  have e2 : G (c ++ { s with policy := none } :: d) = G c ++ G d := by
    rw [hG]
    congr 1
  have hmem : ∀ P ∈ G c ++ G d, ∀ t, Policy.verify (P.known t) = .ok () := by
    intro P hP t
    rw [← hG] at hP
    simp only [G, List.mem_filterMap, List.mem_map, id] at hP
    obtain ⟨_, ⟨x, hx, rfl⟩, hP⟩ := hP
    exact hv x hx P hP t
  have hm : mergePolicies ((c ++ s :: d).map Stmt.policy) = mergePolicies ((c ++ { s with policy := none } :: d).map Stmt.policy) := by
    unfold mergePolicies
    show (do let k ← mergeKnown (G (c ++ s :: d)) EType.all; let x ← mergeExtra (G (c ++ s :: d)) (extraTypes (G (c ++ s :: d))); Except.ok (Policies.mk k x)) =
      (do let k ← mergeKnown (G (c ++ { s with policy := none } :: d)) EType.all
          let x ← mergeExtra (G (c ++ { s with policy := none } :: d)) (extraTypes (G (c ++ { s with policy := none } :: d))); Except.ok (Policies.mk k x))
    rw [e1, e2, mergeKnown_empty hmem, extraTypes_again _ rfl, mergeExtra_again _ rfl]
  have hcr : critOk (c ++ s :: d) = critOk (c ++ { s with policy := none } :: d) := by
    simp [critOk, List.all_append, List.all_cons]
  cases c with
  | nil =>
    cases d with
    | nil => rfl
    | cons b d =>
      simp only [List.nil_append] at hm hcr ⊢
      unfold chainMetadata
      simp only [hm, hcr]
  | cons a c =>
    cases c with
    | nil =>
      simp only [List.cons_append, List.nil_append] at hm hcr ⊢
      unfold chainMetadata
      simp only [hm, hcr]
    | cons b c =>
      simp only [List.cons_append] at hm hcr ⊢
      unfold chainMetadata
      simp only [hm, hcr]

/-- **C173**, full statement, fails: a policy of the superior that is not valid is found out, but not if the leaf states an empty policy in its configuration. The leaf thereby makes
a chain valid that is not valid otherwise, and the resolved value is not the one `value` prescribes. -/
theorem C173_leaf_refuted : ∃ (sup : Option Policies) (c c' : Chain),
    Ex.R.validChains (ExOP.world none sup none) 5 = .ok (some []) ∧
    Ex.R.validChains (ExOP.world (some ⟨fun _ => [], []⟩) sup none) 5 = .ok (some [c, c']) ∧
    ExOP.fields c = some [("client_name", .str ""), ("contacts", sl ["a", "b"])] ∧ sup = ExOP.pol [("contacts", [("value", jl ["a"]), ("add", jl ["b"])])] :=
  ⟨ExOP.pol [("contacts", [("value", jl ["a"]), ("add", jl ["b"])])], _, _, rfl, rfl, rfl, rfl⟩

/-- A leaf that states an empty policy in the example, with a valid policy of its superior that has an effect. -/
example : (∀ x ∈ (ExOP.chain none (ExOP.pol [("contacts", [("add", jl ["a"])])]) none).tail, ∀ P, x.policy = some P → ∀ t, Policy.verify (P.known t) = .ok ()) ∧
    ExOP.fields (ExOP.chain (some ⟨fun _ => [], []⟩) (ExOP.pol [("contacts", [("add", jl ["a"])])]) none) = some [("client_name", .str ""), ("contacts", sl ["x", "a"])] := by
  refine ⟨?_, rfl⟩
  intro x hx P hP t
  simp only [ExOP.chain, List.tail_cons, List.mem_cons, List.not_mem_nil, or_false] at hx
  rcases hx with rfl | rfl | rfl
  · cases hP
  · cases hP
    cases t <;> rfl
  · cases hP

end Oidfed
