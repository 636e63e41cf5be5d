import Verif.Model.Alias
/-! Reading and writing shared arrays. -/

namespace Oidfed

theorem Heap.arrOf_append (h : Heap) (x : List Val) (s : GoSlice) (hs : s.arr < h.length) :
    Heap.arrOf (h ++ [x]) s = h.arrOf s := by
  unfold Heap.arrOf
  rw [List.getElem?_append_left hs]

theorem Heap.arrOf_set (h : Heap) (s t : GoSlice) (x : List Val) :
    Heap.arrOf (h.set s.arr x) t = if t.arr = s.arr ∧ s.arr < h.length then x else h.arrOf t := by
  unfold Heap.arrOf
  by_cases ht : t.arr = s.arr
  · by_cases hl : s.arr < h.length
    · rw [ht]
      simp [hl]
    · rw [List.set_eq_of_length_le (by omega)]
      simp [hl]
  · simp [ht, List.getElem?_set_ne (Ne.symm ht)]

/-- `append` gives a slice that reads as expected, keeps everything valid, and changes no slice except those of the same array
that reach beyond its length (if there was room). -/
theorem Heap.append_spec (grow : Nat → Nat) (h : Heap) (s : GoSlice) (v : Val) (hs : h.Valid s) :
    (h.append grow s v).1.read (h.append grow s v).2 = h.read s ++ [v] ∧
    (h.append grow s v).1.Valid (h.append grow s v).2 ∧
    (h.append grow s v).2.len = s.len + 1 ∧
    (∀ t, h.Valid t → (h.append grow s v).1.Valid t) ∧
    (∀ t, h.Valid t → t.arr ≠ s.arr ∨ t.len ≤ s.len ∨ h.cap s ≤ s.len → (h.append grow s v).1.read t = h.read t) ∧
    ((h.append grow s v).2.arr = s.arr ∨ h.length ≤ (h.append grow s v).2.arr) ∧
    (h.cap s ≤ s.len → h.length ≤ (h.append grow s v).2.arr) := by
  obtain ⟨h1, h2⟩ := hs
  unfold Heap.append
  by_cases hc : s.len < h.cap s
  · rw [if_pos hc]
    have hcap : ∀ t, Heap.cap (h.set s.arr ((h.arrOf s).set s.len v)) t = h.cap t := by
      intro t
      unfold Heap.cap
      rw [Heap.arrOf_set]
      split
      · rename_i hh
        simp [Heap.arrOf, hh.1]
      · rfl
    have hval : ∀ t, h.Valid t → Heap.Valid (h.set s.arr ((h.arrOf s).set s.len v)) t := by
      rintro t ⟨t1, t2⟩
      refine ⟨by simpa using t1, ?_⟩
      rw [hcap]
      exact t2
    refine ⟨?_, ?_, rfl, hval, ?_, .inl rfl, fun hh => by omega⟩
    · unfold Heap.read
      rw [Heap.arrOf_set, if_pos ⟨rfl, h1⟩]
      show ((h.arrOf s).set s.len v).take (s.len + 1) = (h.arrOf s).take s.len ++ [v]
      have hc' : s.len < (h.arrOf s).length := hc
      rw [List.take_add_one, List.take_set_of_le (Nat.le_refl _)]
      simp [hc']
    · refine ⟨by simpa using h1, ?_⟩
      have := hcap ⟨s.arr, s.len + 1⟩
      rw [this]
      show s.len + 1 ≤ (h.arrOf ⟨s.arr, s.len + 1⟩).length
      exact hc
    · rintro t ⟨t1, t2⟩ ht
      unfold Heap.read
      rw [Heap.arrOf_set]
      split
      · rename_i hh
        rcases ht with ht | ht | ht
        · exact absurd hh.1 ht
        · have : h.arrOf t = h.arrOf s := by unfold Heap.arrOf; rw [hh.1]
          rw [this, List.take_set_of_le ht]
        · omega
      · rfl
  · rw [if_neg hc]
    have hval : ∀ (x : List Val) t, h.Valid t → Heap.Valid (h ++ [x]) t := by
      rintro x t ⟨t1, t2⟩
      refine ⟨by simp; omega, ?_⟩
      unfold Heap.cap
      rw [Heap.arrOf_append _ _ _ t1]
      exact t2
    have hlen : (h.read s).length = s.len := by
      unfold Heap.read
      rw [List.length_take]
      exact Nat.min_eq_left h2
    have hnew : ∀ (x : List Val) n, Heap.arrOf (h ++ [x]) ⟨h.length, n⟩ = x := by
      intro x n
      simp [Heap.arrOf]
    refine ⟨?_, ?_, rfl, hval _, ?_, .inr (Nat.le_refl _), fun _ => Nat.le_refl _⟩
    · show (Heap.arrOf _ ⟨h.length, s.len + 1⟩).take (s.len + 1) = _
      rw [hnew, List.take_append_of_le_length (by simp [hlen])]
      rw [List.take_of_length_le (by simp [hlen])]
    · refine ⟨by simp, ?_⟩
      unfold Heap.cap
      rw [hnew]
      simp [hlen]
    · rintro t ⟨t1, t2⟩ _
      unfold Heap.read
      rw [Heap.arrOf_append _ _ _ t1]

theorem Heap.length_append (grow : Nat → Nat) (h : Heap) (s : GoSlice) (v : Val) :
    h.length ≤ (h.append grow s v).1.length := by
  unfold Heap.append
  split <;> simp

/-- What the loop of `ReflectUnion` does to memory. `base` is the slice it started from. -/
theorem Heap.unionLoop_spec (grow : Nat → Nat) : ∀ (bs : List Val) (h : Heap) (out : GoSlice), h.Valid out →
    (Heap.unionLoop grow h out bs).1.read (Heap.unionLoop grow h out bs).2 = Oidfed.unionLoop (h.read out) bs ∧
    (Heap.unionLoop grow h out bs).1.Valid (Heap.unionLoop grow h out bs).2 ∧
    (∀ t, h.Valid t → (Heap.unionLoop grow h out bs).1.Valid t) ∧
    (∀ t, h.Valid t → t.arr ≠ out.arr ∨ t.len ≤ out.len ∨ h.cap out ≤ out.len →
      (Heap.unionLoop grow h out bs).1.read t = h.read t) := by
  intro bs
  induction bs with
  | nil => intro h out hv; exact ⟨rfl, hv, fun _ ht => ht, fun _ _ _ => rfl⟩
  | cons b bs ih =>
    intro h out hv
    rw [Heap.unionLoop, Oidfed.unionLoop]
    by_cases hc : (h.read out).contains b = true
    · rw [if_pos hc, if_pos hc]
      exact ih h out hv
    · rw [if_neg hc, if_neg hc]
      dsimp only
      obtain ⟨a1, a2, a3, a4, a5, a6, a7⟩ := Heap.append_spec grow h out b hv
      obtain ⟨i1, i2, i3, i4⟩ := ih _ _ a2
      refine ⟨?_, i2, fun t ht => i3 t (a4 t ht), ?_⟩
      · rw [i1, a1]
      · intro t ht hd
        rw [i4 t (a4 t ht) ?_, a5 t ht hd]
        rcases hd with hd | hd | hd
        · rcases a6 with e | e
          · exact .inl (by rw [e]; exact hd)
          · exact .inl (by have := ht.1; omega)
        · exact .inr (.inl (by omega))
        · exact .inl (by have := a7 hd; have := ht.1; omega)

theorem Heap.union_spec (grow : Nat → Nat) (h : Heap) (a : GoSlice) (bs : List Val) (hv : h.Valid a) :
    (Heap.union grow h a bs).1.read (Heap.union grow h a bs).2 =
      (if bs.isEmpty then h.read a else if a.len = 0 then bs else Oidfed.unionLoop (h.read a) bs) ∧
    (Heap.union grow h a bs).1.Valid (Heap.union grow h a bs).2 ∧
    (∀ t, h.Valid t → (Heap.union grow h a bs).1.Valid t) ∧
    (∀ t, h.Valid t → t.arr ≠ a.arr ∨ t.len ≤ a.len ∨ h.cap a ≤ a.len ∨ a.len = 0 →
      (Heap.union grow h a bs).1.read t = h.read t) := by
  unfold Heap.union
  by_cases hb : bs.isEmpty = true
  · simp only [hb, if_true]
    exact ⟨trivial, hv, fun _ ht => ht, fun _ _ _ => trivial⟩
  · simp only [hb, Bool.false_eq_true, if_false]
    by_cases ha : a.len = 0
    · simp only [ha, if_true]
      have hnew : ∀ n, Heap.arrOf (h ++ [bs]) ⟨h.length, n⟩ = bs := by
        intro n
        simp [Heap.arrOf]
      refine ⟨?_, ⟨by simp, ?_⟩, ?_, ?_⟩
      · unfold Heap.read; rw [hnew]; simp
      · unfold Heap.cap; rw [hnew]; exact Nat.le_refl _
      · rintro t ⟨t1, t2⟩
        refine ⟨by simp; omega, ?_⟩
        unfold Heap.cap
        rw [Heap.arrOf_append _ _ _ t1]
        exact t2
      · rintro t ⟨t1, t2⟩ _
        unfold Heap.read
        rw [Heap.arrOf_append _ _ _ t1]
    · simp only [ha, if_false]
      obtain ⟨i1, i2, i3, i4⟩ := Heap.unionLoop_spec grow bs h a hv
      refine ⟨i1, i2, i3, fun t ht hd => i4 t ht ?_⟩
      rcases hd with hd | hd | hd | hd
      · exact .inl hd
      · exact .inr (.inl hd)
      · exact .inr (.inr hd)
      · exact hd.elim

end Oidfed
