import Verif.Model.ChainFilter
/-! # Helper lemmas for chain filters and sorting -/

namespace Oidfed

theorem checkerLoop_eq (check : Chain → Bool) : ∀ (cs final : List Chain),
    checkerLoop check final cs = final ++ cs.filter check := by
  intro cs
  induction cs with
  | nil => intro final; simp [checkerLoop]
  | cons c cs ih =>
    intro final
    rw [checkerLoop, ih]
    by_cases h : check c <;> simp [h]

theorem checkerFilter_eq (check : Chain → Bool) (cs : List Chain) : checkerFilter check cs = cs.filter check := by
  simp [checkerFilter, checkerLoop_eq]

theorem minLoop_le : ∀ (cs : List Chain) (m : Nat), minLoop m cs ≤ m ∧ ∀ c ∈ cs, minLoop m cs ≤ pathLen c := by
  intro cs
  induction cs with
  | nil => intro m; simp [minLoop]
  | cons c cs ih =>
    intro m
    rw [minLoop]
    have := ih (if pathLen c < m then pathLen c else m)
    refine ⟨?_, ?_⟩
    · have := this.1; split at this <;> split <;> omega
    · intro x hx
      rcases List.mem_cons.mp hx with rfl | hx
      · have := this.1; split at this <;> split <;> omega
      · exact this.2 x hx

theorem minLoop_mem : ∀ (cs : List Chain) (m : Nat), minLoop m cs = m ∨ ∃ c ∈ cs, minLoop m cs = pathLen c := by
  intro cs
  induction cs with
  | nil => intro m; simp [minLoop]
  | cons c cs ih =>
    intro m
    rw [minLoop]
    rcases ih (if pathLen c < m then pathLen c else m) with h | ⟨x, hx, h⟩
    · by_cases hc : pathLen c < m
      · right; exact ⟨c, by simp, by rw [h]; simp [hc]⟩
      · left; rw [h]; simp [hc]
    · right; exact ⟨x, by simp [hx], h⟩

theorem swapAdj_perm {α} : ∀ (n : Nat) (l : List α), (swapAdj n l).Perm l
  | 0, [] => .refl _
  | 0, [_] => .refl _
  | 0, a :: b :: l => .swap a b l
  | _+1, [] => .refl _
  | n+1, a :: l => (swapAdj_perm n l).cons a

theorem insInner_perm {α} (less) : ∀ (j : Nat) (l : List α), (insInner less j l).Perm l
  | 0, l => .refl _
  | j+1, l => by
      rw [insInner]
      split
      · exact (insInner_perm less j _).trans (swapAdj_perm j l)
      · exact .refl _

theorem insOuter_perm {α} (less) : ∀ (k i : Nat) (l : List α), (insOuter less k i l).Perm l
  | 0, _, _ => .refl _
  | k+1, i, l => (insOuter_perm less k (i+1) _).trans (insInner_perm less i l)

theorem insOuter_id {α} (less) : ∀ (k i : Nat) (l : List α), (∀ j, i ≤ j + 1 → j + 1 < i + k → less (j+1) j = false) →
    0 < i → insOuter less k i l = l
  | 0, _, l, _, _ => rfl
  | k+1, i+1, l, h, _ => by
      rw [insOuter, insInner, h i (by omega) (by omega)]
      simp only [Bool.false_eq_true, if_false]
      exact insOuter_id less k (i+2) l (fun j h1 h2 => h j (by omega) (by omega)) (by omega)

theorem swap_perm {α} (l : List α) (i j : Nat) (x y : α) (hi : l[i]? = some x) (hj : l[j]? = some y) :
    ((l.set i y).set j x).Perm l := by
  obtain ⟨hi', rfl⟩ := List.getElem?_eq_some_iff.mp hi
  obtain ⟨hj', rfl⟩ := List.getElem?_eq_some_iff.mp hj
  have := Array.swap_perm (xs := l.toArray) (i := i) (j := j) (by simpa using hi') (by simpa using hj')
  have h2 := this.toList
  simpa [Array.swap] using h2

theorem runSwaps_perm {α} : ∀ (ps : List (Nat × Nat)) (l : List α), (runSwaps ps l).Perm l
  | [], l => .refl _
  | (i, j) :: ps, l => by
      rw [runSwaps]
      refine (runSwaps_perm ps _).trans ?_
      split
      · rename_i x y hx hy; exact swap_perm l i j x y hx hy
      · exact .refl _

end Oidfed
