import Verif.Lemmas.AnyOrderPolicy
import Verif.Props.PolicyApply
/-!
# C21: any number of policies combine in any order
-/

namespace Oidfed
open Spec

/-- **C21** (part) for any number of policies: in whatever order they are combined, with verification at each step, combining succeeds or fails alike, and the combined policies
are about the same attributes with the same operators, whose values are the same as sets. Missing: unknown operators, operands of the wrong type and `null`
(`C21_null_refuted`), `value` and `default` with repeated elements, and policies that are not valid themselves. -/
theorem C21_any_order_partial (ps qs : List Policy) (h : ps.Perm qs) (hps : ∀ p ∈ ps, OrdinaryPolicy p) :
    (∀ m, combineAll ps = .ok m → ∃ m', combineAll qs = .ok m' ∧ SamePolicy m m') ∧ (∀ m', combineAll qs = .ok m' → ∃ m, combineAll ps = .ok m ∧ SamePolicy m m') := by
  have hqs : ∀ p ∈ qs, OrdPolicy p := fun p hp => ordPolicy_of (hps p (h.mem_iff.mpr hp))
  refine ⟨fun m hm => combineAll_perm h (fun p hp => ordPolicy_of (hps p hp)) hm, fun m' hm' => ?_⟩
  obtain ⟨m, hm, hs⟩ := combineAll_perm h.symm hqs hm'
  exact ⟨m, hm, samePolicy_symm hs⟩

/-- **C21 fails** for `null`: whether three policies can be combined depends on their order. -/
theorem C21_null_refuted : ∃ p q r : Policy, (∀ x ∈ [p, q, r], Policy.verify x = .ok ()) ∧ (∃ m, combineAll [p, r, q] = .ok m) ∧ ∀ m, combineAll [p, q, r] ≠ .ok m := by
  refine ⟨[("contacts", [("add", .nil)])], [("contacts", [("subset_of", jl ["a"])])], [("contacts", [("add", jl ["a"])])], ?_, ⟨_, rfl⟩, fun m h => by cases h⟩
  intro x hx
  simp only [List.mem_cons, List.not_mem_nil, or_false] at hx
  rcases hx with rfl | rfl | rfl <;> rfl

/-- Three policies for one attribute and one for another. -/
def Ex.orderPols : List Policy :=
  [[("contacts", [("subset_of", jl ["a", "b", "c"])])], [("contacts", [("add", jl ["b"]), ("subset_of", jl ["c", "b"])])], [("contacts", [("essential", .bool true)]), ("scope", [])],
    [("contacts", [("add", jl ["c"])])]]

theorem Ex.orderPols_ordinary : ∀ p ∈ Ex.orderPols, OrdinaryPolicy p := by
  have entry : ∀ e : Entry, e.keys.Nodup → (∀ kv ∈ e, (kv.1 ∈ ["add", "subset_of"] ∧ ∃ n xs, kv.2 = .slice .any n xs) ∨ (kv.1 = "essential" ∧ ∃ b, kv.2 = .bool b)) →
      PlainEntry e ∧ (∀ op v, op ∈ ["add", "one_of", "subset_of", "superset_of"] → e.get op = some v → ∃ n xs, v = .slice .any n xs) ∧
        ∀ v, e.get "essential" = some v → ∃ b, v = .bool b := by
    intro e hn he
    have get : ∀ op v, e.get op = some v → (op ∈ ["add", "subset_of"] ∧ ∃ n xs, v = .slice .any n xs) ∨ (op = "essential" ∧ ∃ b, v = .bool b) := fun op v hv => he _ (get_mem hv)
    have lists : ∀ op v, op ∈ ["add", "one_of", "subset_of", "superset_of"] → e.get op = some v → ∃ n xs, v = .slice .any n xs := by
      intro op v hop hv
      rcases get op v hv with ⟨_, h⟩ | ⟨rfl, _⟩
      · exact h
      · simp at hop
    have no : ∀ op v, op = "value" ∨ op = "default" → e.get op ≠ some v := by
      rintro op v (rfl | rfl) hv <;> (rcases get _ v hv with ⟨h, _⟩ | ⟨h, _⟩ <;> simp at h)
    refine ⟨⟨⟨hn, ?_, fun s hs => absurd hs (no _ s (.inl rfl)), fun s hs => absurd hs (no _ s (.inr rfl))⟩, ?_⟩, lists, ?_⟩
    · rintro n ⟨v, hv⟩
      rcases get n v hv with ⟨h, _⟩ | ⟨rfl, _⟩
      · unfold Known
        simp only [List.mem_cons, List.not_mem_nil, or_false] at h
        rcases h with rfl | rfl <;> simp
      · unfold Known; simp
    · intro op s hop hs
      exact .inr (lists op s (by simpa using hop) hs)
    · intro v hv
      rcases get _ v hv with ⟨h, _⟩ | ⟨_, h⟩
      · simp at h
      · exact h
  have pol : ∀ p : Policy, AMap.WF p → Policy.verify p = .ok () →
      (∀ kv ∈ p, kv.2.keys.Nodup ∧ ∀ x ∈ kv.2, (x.1 ∈ ["add", "subset_of"] ∧ ∃ n xs, x.2 = .slice .any n xs) ∨ (x.1 = "essential" ∧ ∃ b, x.2 = .bool b)) → OrdinaryPolicy p := by
    intro p hw hv he
    have all := fun k e (h : AMap.get p k = some e) => entry e (he _ (get_mem h)).1 (he _ (get_mem h)).2
    exact ⟨⟨hw, fun k e h => (all k e h).1⟩, hv, fun k e op v h => (all k e h).2.1 op v, fun k e v h => (all k e h).2.2 v⟩
  intro p hp
  simp only [Ex.orderPols, List.mem_cons, List.not_mem_nil, or_false] at hp
  rcases hp with rfl | rfl | rfl | rfl <;> refine pol _ (by unfold AMap.WF; decide) rfl ?_ <;> simp [AMap.keys, jl]
  rintro a b (⟨rfl, rfl⟩ | ⟨rfl, rfl⟩) <;> simp

/-- They combine in both orders; the values are listed differently. -/
example : combineAll Ex.orderPols = .ok [("contacts", [("subset_of", jl ["b", "c"]), ("add", jl ["b", "c"]), ("essential", .bool true)]), ("scope", [])] ∧
    combineAll Ex.orderPols.reverse = .ok [("contacts", [("add", jl ["c", "b"]), ("essential", .bool true), ("subset_of", jl ["c", "b"])]), ("scope", [])] := ⟨rfl, rfl⟩

end Oidfed
