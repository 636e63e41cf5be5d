import Verif.Lemmas.ChainFilter
import Verif.Spec.Chains
import Verif.Examples.Federation
/-!
# Chain metadata gate, expiry, filters, sorting: C15 – C18
-/

namespace Oidfed

/-! ## C15 -/

/-- C15: a chain of two or more statements, one of which marks an unsupported operator as critical, has no metadata: an
error is returned (no panic). -/
theorem C15_unsupported_crit_rejected (c : Chain) (hl : 2 ≤ c.length) (s : Stmt) (hs : s ∈ c)
    (n : String) (hn : n ∈ s.policyCrit) (hu : n ∉ supportedOperators) : chainMetadata c = .error .error := by
  have hc : critOk c = false := by
    unfold critOk
    rw [List.all_eq_false]
    refine ⟨s, hs, ?_⟩
    simp only [Bool.not_eq_true, List.all_eq_false]
    refine ⟨n, hn, ?_⟩
    have : ¬ n ∈ operatorOrder := hu
    simpa using this
  match c, hl with
  | a :: b :: rest, _ => unfold chainMetadata; simp only [hc]; rfl

example : 2 ≤ ([Ex.leafEC, { Ex.mk "i" "l" none 2 with policyCrit := ["add", "regexp"] }, Ex.tEC] : Chain).length ∧
    "regexp" ∉ supportedOperators := by decide

/-- Conversely, a chain whose critical operators are all supported is not rejected on that ground: its metadata is whatever
merging and applying the policies gives. -/
theorem C15_supported_crit_accepted (a b : Stmt) (rest : Chain)
    (h : ∀ s ∈ a :: b :: rest, ∀ n ∈ s.policyCrit, n ∈ supportedOperators) :
    chainMetadata (a :: b :: rest) = (do
      let p ← mergePolicies ((a :: b :: rest).map Stmt.policy)
      let r ← (a.metadata.getD Metadata.empty).applyPolicy (some p)
      .ok (some r)) := by
  have hc : critOk (a :: b :: rest) = true := by
    unfold critOk
    simp only [List.all_eq_true]
    intro s hs n hn
    have : n ∈ operatorOrder := h s hs n hn
    simpa using this
  unfold chainMetadata
  simp only [hc]
  rfl

example : ∀ s ∈ Ex.chainI, ∀ n ∈ s.policyCrit, n ∈ supportedOperators := by
  simp [Ex.chainI, Ex.leafEC, Ex.tEC, Ex.mk]

/-! ## C16 -/

theorem ite_min (a b x : Int) (h : x ≤ if a < b then a else b) : x ≤ a ∧ x ≤ b := by
  split at h <;> omega

theorem expLoop_spec : ∀ (c : Chain) (e : Time),
    (expLoop e c = e ∨ ∃ s ∈ c, expLoop e c = s.exp) ∧ expLoop e c ≤ e ∧ ∀ s ∈ c, expLoop e c ≤ s.exp := by
  intro c
  induction c with
  | nil => intro e; simp [expLoop]
  | cons x xs ih =>
    intro e
    rw [expLoop]
    obtain ⟨h1, h2, h3⟩ := ih (if x.exp < e then x.exp else e)
    refine ⟨?_, ?_, ?_⟩
    · rcases h1 with h | ⟨s, hs, h⟩
      · by_cases hx : x.exp < e
        · right; exact ⟨x, by simp, by rw [h]; simp [hx]⟩
        · left; rw [h]; simp [hx]
      · right; exact ⟨s, by simp [hs], h⟩
    · exact (ite_min _ _ _ h2).2
    · intro s hs
      rcases List.mem_cons.mp hs with rfl | hs
      · exact (ite_min _ _ _ h2).1
      · exact h3 s hs

/-- C16: the expiry of a non-empty chain is the expiry of one of its statements, and no statement expires earlier. -/
theorem C16_expiry_is_earliest (c : Chain) (hc : c ≠ []) :
    (∃ s ∈ c, chainExp c = s.exp) ∧ ∀ s ∈ c, chainExp c ≤ s.exp := by
  cases c with
  | nil => exact absurd rfl hc
  | cons x xs =>
    obtain ⟨h1, h2, h3⟩ := expLoop_spec xs x.exp
    refine ⟨?_, ?_⟩
    · rcases h1 with h | ⟨s, hs, h⟩
      · exact ⟨x, by simp, h⟩
      · exact ⟨s, by simp [hs], h⟩
    · intro s hs
      rcases List.mem_cons.mp hs with rfl | hs
      · exact h2
      · exact h3 s hs

example : Ex.chainI ≠ [] := by simp [Ex.chainI]

/-! ## C17 -/

/-- Number of intermediates: a chain holds the leaf configuration, one statement about the leaf, one per intermediate, and the
anchor's configuration. Shorter lists count as 0. -/
def intermediates (c : Chain) : Nat := c.length - 3

theorem pathLen_eq (c : Chain) : pathLen c = intermediates c := by
  unfold pathLen intermediates; split <;> omega

/-- C17: filtering with any number of checkers keeps exactly the chains every checker accepts, in order. -/
theorem C17_filter_checkers (checks : List (Chain → Bool)) (cs : List Chain) :
    filterChains (checks.map checkerFilter) cs = cs.filter (fun c => checks.all (fun f => f c)) := by
  induction checks generalizing cs with
  | nil => exact (List.filter_eq_self.mpr (by simp)).symm
  | cons f fs ih =>
    simp only [List.map_cons, filterChains, checkerFilter_eq]
    split
    · rename_i h
      simp only [List.isEmpty_iff] at h
      rw [h]
      symm
      rw [List.filter_eq_nil_iff] at h ⊢
      intro c hc
      simp [h c hc]
    · rw [ih, List.filter_filter]
      congr 1
      funext c
      simp [Bool.and_comm]

/-- C17: the trust-anchor filter keeps exactly the chains whose last statement is issued by the anchor, in order. -/
theorem C17_filter_trust_anchor (a : ID) (cs : List Chain) :
    (filterTrustAnchor a cs).Sublist cs ∧
    ∀ c, c ∈ filterTrustAnchor a cs ↔ c ∈ cs ∧ ∃ s, c.getLast? = some s ∧ s.iss = a := by
  unfold filterTrustAnchor
  rw [checkerFilter_eq]
  refine ⟨List.filter_sublist, ?_⟩
  intro c
  rw [List.mem_filter]
  refine and_congr_right fun _ => ?_
  unfold anchorCheck
  rw [List.getLast?_eq_getElem?]
  cases c[c.length - 1]? <;> simp

/-- C17: the minimal-path-length filter keeps exactly the chains with the fewest intermediates, in order. -/
theorem C17_filter_min_path_length (cs : List Chain) :
    (filterMinPathLength cs).Sublist cs ∧
    ∀ c, c ∈ filterMinPathLength cs ↔ c ∈ cs ∧ ∀ d ∈ cs, intermediates c ≤ intermediates d := by
  unfold filterMinPathLength filterPathLength
  cases cs with
  | nil => simp
  | cons x xs =>
    simp only [Int.reduceNeg, Int.reduceLT, if_true, checkerLoop_eq, List.nil_append]
    refine ⟨List.filter_sublist, ?_⟩
    intro c
    rw [List.mem_filter]
    refine and_congr_right fun hc => ?_
    simp only [decide_eq_true_eq, Int.ofNat_le, ← pathLen_eq]
    obtain ⟨h1, h2⟩ := minLoop_le xs (pathLen x)
    constructor
    · intro h d hd
      rcases List.mem_cons.mp hd with rfl | hd
      · omega
      · have := h2 d hd; omega
    · intro h
      rcases minLoop_mem xs (pathLen x) with hm | ⟨d, hd, hm⟩
      · have := h x (by simp); omega
      · have := h d (by simp [hd]); omega

/-- C17: for `n ≥ 0` the maximal-path-length filter keeps exactly the chains with at most `n` intermediates, in order.
Missing: negative `n`, see the refutation. -/
theorem C17_filter_max_path_length_partial (n : Int) (hn : 0 ≤ n) (cs : List Chain) :
    (filterMaxPathLength n cs).Sublist cs ∧
    ∀ c, c ∈ filterMaxPathLength n cs ↔ c ∈ cs ∧ (intermediates c : Int) ≤ n := by
  unfold filterMaxPathLength filterPathLength
  cases cs with
  | nil => simp
  | cons x xs =>
    have hn' : ¬ n < 0 := by omega
    simp only [hn', if_false, checkerLoop_eq, List.nil_append]
    refine ⟨List.filter_sublist, ?_⟩
    intro c
    rw [List.mem_filter]
    simp [pathLen_eq]

/-- C17 is false for a negative maximum: no chain has at most `-1` intermediates, yet the shortest ones are returned. -/
theorem C17_filter_max_path_length_refuted :
    ¬ ∀ (n : Int) (cs : List Chain) (c : Chain),
      c ∈ filterMaxPathLength n cs ↔ c ∈ cs ∧ (intermediates c : Int) ≤ n := by
  intro h
  have := (h (-1) [Ex.chainI] Ex.chainI).mp (by
    have : filterMaxPathLength (-1) [Ex.chainI] = [Ex.chainI] := rfl
    rw [this]; simp)
  exact absurd this.2 (by decide)

/-- The filters on the two chains of the example federation and a shorter one. -/
example : filterMinPathLength [Ex.chainI, Ex.chainJ, Ex.chainI.tail] = [Ex.chainI.tail] ∧
    filterMaxPathLength 1 [Ex.chainI, Ex.chainJ] = [Ex.chainI, Ex.chainJ] ∧ (0 : Int) ≤ 1 := ⟨rfl, rfl, by decide⟩

/-! ## C18 -/

/-- C18, permutation half: sorting (at most 12 chains; insertion sort) returns a permutation of the chains. -/
theorem C18_sort_permutation_partial (scorer : Chain → Int) (cs : List Chain) :
    (sortAsc scorer cs).Perm cs ∧ (sortDesc scorer cs).Perm cs :=
  ⟨insOuter_perm _ _ _ _, insOuter_perm _ _ _ _⟩

/-- C18, permutation half, any length and any algorithm that works by swapping elements. -/
theorem C18_swaps_permutation_partial (ps : List (Nat × Nat)) (cs : List Chain) : (runSwaps ps cs).Perm cs :=
  runSwaps_perm ps cs

/-- a chain of `n` statements -/
def exChain (n : Nat) : Chain := List.replicate n Ex.tEC

/-- C18 is false: sorting three chains of path length 3, 1, 2 ascending by path length gives 1, 3, 2. -/
theorem C18_sort_ordered_refuted :
    ¬ ∀ (scorer : Chain → Int) (cs : List Chain), cs.length ≤ 12 →
      (sortAsc scorer cs).Pairwise (fun a b => scorer a ≤ scorer b) := by
  intro h
  have := h (fun c => pathLen c) [exChain 6, exChain 4, exChain 5] (by decide)
  have he : sortAsc (fun c => (pathLen c : Int)) [exChain 6, exChain 4, exChain 5] =
      [exChain 4, exChain 6, exChain 5] := rfl
  rw [he] at this
  revert this
  decide

/-- C18, ordered half, where it holds: up to two chains, and chains that were in order to begin with (which then stay as
they are). Missing: three or more chains in other arrangements. -/
theorem C18_sort_ordered_partial (scorer : Chain → Int) (cs : List Chain) :
    (cs.length ≤ 2 → (sortAsc scorer cs).Pairwise (fun a b => scorer a ≤ scorer b) ∧
      (sortDesc scorer cs).Pairwise (fun a b => scorer a ≥ scorer b)) ∧
    (cs.Pairwise (fun a b => scorer a ≤ scorer b) → sortAsc scorer cs = cs) ∧
    (cs.Pairwise (fun a b => scorer a ≥ scorer b) → sortDesc scorer cs = cs) := by
  refine ⟨?_, ?_, ?_⟩
  · intro h
    match cs, h with
    | [], _ => exact ⟨.nil, .nil⟩
    | [a], _ => exact ⟨by simp [sortAsc, sortSliceSmall, insOuter], by simp [sortDesc, sortSliceSmall, insOuter]⟩
    | [a, b], _ =>
      constructor
      · simp only [sortAsc, sortSliceSmall, List.map, List.length, insOuter, insInner, List.getD]
        by_cases h : scorer b < scorer a
        · simp [h, swapAdj]; omega
        · simp [h]; omega
      · simp only [sortDesc, sortSliceSmall, List.map, List.length, insOuter, insInner, List.getD]
        by_cases h : scorer b > scorer a
        · simp [h, swapAdj]; omega
        · simp [h]; omega
  · intro h
    apply insOuter_id
    · intro j h1 h2
      have hj : j + 1 < cs.length := by omega
      have := List.pairwise_iff_getElem.mp h j (j+1) (by omega) hj (by omega)
      simp [List.getD, hj, (by omega : j < cs.length)]
      omega
    · omega
  · intro h
    apply insOuter_id
    · intro j h1 h2
      have hj : j + 1 < cs.length := by omega
      have := List.pairwise_iff_getElem.mp h j (j+1) (by omega) hj (by omega)
      simp [List.getD, hj, (by omega : j < cs.length)]
      omega
    · omega

example : sortAsc (fun c => (pathLen c : Int)) [exChain 6, exChain 4] = [exChain 4, exChain 6] := rfl

/-! ## C61 -/

/-- C61 is false: a statement marking an extension claim as critical (`crit`) is accepted although the library knows no such
extension. -/
theorem C61_critical_extensions_refuted :
    ¬ ∀ (W : World) (r : Resolver) (c : Chain), Spec.Produces W r c → ∀ s ∈ c, s.crit = [] := by
  intro h
  have hp : Spec.Produces { Ex.W with start := fun _ => some { Ex.leafEC with crit := ["must_understand"] } } Ex.R
      ({ Ex.leafEC with crit := ["must_understand"] } :: Ex.chainI.tail) :=
    ⟨5, [{ Ex.leafEC with crit := ["must_understand"] } :: Ex.chainI.tail,
         { Ex.leafEC with crit := ["must_understand"] } :: Ex.chainJ.tail], .inr rfl, by simp⟩
  have := h _ _ _ hp _ (List.mem_cons_self ..)
  simp at this

end Oidfed
