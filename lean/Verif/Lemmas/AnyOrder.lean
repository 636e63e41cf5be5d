import Verif.Spec.AnyOrder
import Verif.Lemmas.PolicyTwice
/-!
# Combining policies in any order
-/

namespace Oidfed
open Spec

/-- An operand as it should be. -/
def OrdVal (o : Op) (v : Val) : Prop :=
  match o with
  | .add | .oneOf | .subsetOf | .supersetOf => ∃ n xs, v = .slice .any n xs
  | .value | .default => v.elems.Nodup
  | .essential => ∃ b, v = .bool b

theorem OrdVal.plain {o : Op} {v : Val} (h : OrdVal o v) : PlainVal o v := by
  cases o with
  | add | oneOf | subsetOf | supersetOf => exact .inr h
  | value | default => exact h
  | essential => trivial

theorem ord_nonnil {v : Val} (h : ∃ n xs, v = .slice .any n xs) : v ≠ .nil := by
  obtain ⟨n, xs, rfl⟩ := h
  intro h
  cases h

theorem listOrNull_ord {v : Val} (h : ListOrNull v) (hn : v ≠ .nil) : ∃ n xs, v = .slice .any n xs := h.resolve_left hn

/-- How the result of a merge relates to one of the operands. -/
def Tighter (o : Op) (x z : Val) : Prop :=
  match o with
  | .add | .supersetOf => ∀ v ∈ x.elems, v ∈ z.elems
  | .oneOf | .subsetOf => ∀ v ∈ z.elems, v ∈ x.elems
  | .value => SameVal x z
  | .default | .essential => True

theorem tighter_refl (o : Op) (x : Val) : Tighter o x x := by
  cases o with
  | add | supersetOf | oneOf | subsetOf => exact fun _ h => h
  | value => exact SameVal.refl x
  | default | essential => trivial

theorem sameVal_trans {x y z : Val} (h : SameVal x y) (h' : SameVal y z) : SameVal x z :=
  ⟨h.1.trans h'.1, fun v => (h.2 v).trans (h'.2 v)⟩

theorem tighter_same {o : Op} {x z z' : Val} (h : Tighter o x z) (hs : SameVal z z') : Tighter o x z' := by
  cases o with
  | add | supersetOf => exact fun v hv => (hs.2 v).mp (h v hv)
  | oneOf | subsetOf => exact fun v hv => h v ((hs.2 v).mpr hv)
  | value => exact sameVal_trans h hs
  | default | essential => trivial

theorem op_ord {o : Op} {x y z : Val} (hx : OrdVal o x) (hy : OrdVal o y) (h : o.merge x y = .ok z) : OrdVal o z ∧ Tighter o x z := by
  have hp := op_plain hx.plain hy.plain h
  cases o with
  | add | supersetOf =>
    obtain ⟨w, hw, _, hn, he⟩ := mergeUnion_plain (.inr hx) (.inr hy)
    have h : mergeUnion x y = .ok z := h
    rw [hw] at h
    cases h
    exact ⟨listOrNull_ord hp (fun e => ord_nonnil hx (hn.mp e).1), fun v hv => (he v).mpr (.inl hv)⟩
  | oneOf | subsetOf =>
    obtain ⟨w, hw, _, hn, he⟩ := mergeIntersect_plain (.inr hx) (.inr hy)
    have h : mergeIntersect x y = .ok z := h
    rw [hw] at h
    cases h
    exact ⟨listOrNull_ord hp (fun e => ord_nonnil hx (hn.mp e).1), fun v hv => ((he v).mp hv).2.1 (ord_nonnil hx)⟩
  | value =>
    obtain ⟨_, rfl⟩ := (mergeValue_iff hx hy).mp h
    exact ⟨hp, SameVal.refl _⟩
  | default => exact ⟨hp, trivial⟩
  | essential =>
    have h : mergeEssential x y = .ok z := h
    rw [essential_merge] at h
    cases h
    exact ⟨⟨_, rfl⟩, trivial⟩

theorem op_same {o : Op} {x x' y y' z : Val} (hx : OrdVal o x) (hx' : OrdVal o x') (hy : OrdVal o y) (hy' : OrdVal o y') (sx : SameVal x x') (sy : SameVal y y')
    (h : o.merge x y = .ok z) : ∃ z', o.merge x' y' = .ok z' ∧ SameVal z z' := by
  cases o with
  | add | supersetOf =>
    obtain ⟨w, hw, _, hn, he⟩ := mergeUnion_plain (.inr hx) (.inr hy)
    obtain ⟨w', hw', _, hn', he'⟩ := mergeUnion_plain (.inr hx') (.inr hy')
    have h : mergeUnion x y = .ok z := h
    rw [hw] at h
    cases h
    refine ⟨w', hw', ?_, fun v => ?_⟩
    · rw [hn, hn', sx.1, sy.1]
    · rw [he, he', sx.2 v, sy.2 v]
  | oneOf | subsetOf =>
    obtain ⟨w, hw, _, hn, he⟩ := mergeIntersect_plain (.inr hx) (.inr hy)
    obtain ⟨w', hw', _, hn', he'⟩ := mergeIntersect_plain (.inr hx') (.inr hy')
    have h : mergeIntersect x y = .ok z := h
    rw [hw] at h
    cases h
    refine ⟨w', hw', ?_, fun v => ?_⟩
    · rw [hn, hn', sx.1, sy.1]
    · rw [he, he', sx.2 v, sy.2 v, ne_eq, ne_eq, sx.1, sy.1]
  | value =>
    obtain ⟨hs, rfl⟩ := (mergeValue_iff hx hy).mp h
    exact ⟨x', (mergeValue_iff hx' hy').mpr ⟨sameVal_trans sx.symm (sameVal_trans hs sy), rfl⟩, sx⟩
  | default =>
    rcases (mergeDefault_iff hx hy).mp h with ⟨h1, rfl⟩ | ⟨h1, h2, rfl⟩ | ⟨h1, h2, h3, rfl⟩
    · exact ⟨y', (mergeDefault_iff hx' hy').mpr (.inl ⟨sx.1.mp h1, rfl⟩), sy⟩
    · exact ⟨x', (mergeDefault_iff hx' hy').mpr (.inr (.inl ⟨fun e => h1 (sx.1.mpr e), sy.1.mp h2, rfl⟩)), sx⟩
    · exact ⟨x', (mergeDefault_iff hx' hy').mpr (.inr (.inr ⟨fun e => h1 (sx.1.mpr e), fun e => h2 (sy.1.mpr e), sameVal_trans sx.symm (sameVal_trans h3 sy), rfl⟩)), sx⟩
  | essential =>
    have hb : ∀ {a b : Val}, (∃ c, a = .bool c) → (∃ c, b = .bool c) → SameVal a b → a = b := by
      rintro a b ⟨c, rfl⟩ ⟨d, rfl⟩ hs
      have := (hs.2 (.bool c)).mp (by simp [Val.elems])
      simpa [Val.elems] using this
    cases hb hx hx' sx
    cases hb hy hy' sy
    exact ⟨z, h, SameVal.refl z⟩

/-- An operator of an entry, if it is there, is as it should be. -/
def OrdOpt (op : OpName) (x : Option Val) : Prop := ∀ v, x = some v → ∃ o, operators op = some o ∧ OrdVal o v

theorem OrdOpt.plain {op : OpName} {x : Option Val} (h : OrdOpt op x) : PlainOpt op x := by
  intro o v ho hv
  obtain ⟨o', ho', h'⟩ := h v hv
  rw [ho] at ho'
  cases ho'
  exact h'.plain

theorem mo_ord {op : OpName} {x y z : Option Val} (hx : OrdOpt op x) (hy : OrdOpt op y) (h : mo op x y = .ok z) : OrdOpt op z := by
  cases x with
  | none => cases h; exact hy
  | some x =>
    cases y with
    | none => cases h; exact hx
    | some y =>
      obtain ⟨o, w, ho, hw, rfl⟩ := mo_some h
      obtain ⟨o1, ho1, hx1⟩ := hx x rfl
      obtain ⟨o2, ho2, hy1⟩ := hy y rfl
      rw [ho] at ho1 ho2
      cases ho1
      cases ho2
      intro v hv
      cases hv
      exact ⟨o, ho, (op_ord hx1 hy1 hw).1⟩

/-- What is in the first operand is in the result, possibly tighter. -/
theorem mo_tighter {op : OpName} {x y z : Option Val} (hx : OrdOpt op x) (hy : OrdOpt op y) (h : mo op x y = .ok z) {v : Val} (hv : x = some v) :
    ∃ o w, operators op = some o ∧ z = some w ∧ Tighter o v w := by
  subst hv
  obtain ⟨o1, ho1, hx1⟩ := hx v rfl
  cases y with
  | none => cases h; exact ⟨o1, v, ho1, rfl, tighter_refl o1 v⟩
  | some y =>
    obtain ⟨o, w, ho, hw, rfl⟩ := mo_some h
    obtain ⟨o2, ho2, hy1⟩ := hy y rfl
    rw [ho] at ho1 ho2
    cases ho1
    cases ho2
    exact ⟨_, w, ho, rfl, (op_ord hx1 hy1 hw).2⟩

theorem mo_same {op : OpName} {x x' y y' z : Option Val} (hx : OrdOpt op x) (hx' : OrdOpt op x') (hy : OrdOpt op y) (hy' : OrdOpt op y') (sx : SameOpt x x') (sy : SameOpt y y')
    (h : mo op x y = .ok z) : ∃ z', mo op x' y' = .ok z' ∧ SameOpt z z' := by
  cases x with
  | none =>
    cases x' with
    | some x' => exact absurd sx (by simp [SameOpt])
    | none => cases h; exact ⟨y', rfl, sy⟩
  | some x =>
    cases x' with
    | none => exact absurd sx (by simp [SameOpt])
    | some x' =>
      cases y with
      | none =>
        cases y' with
        | some y' => exact absurd sy (by simp [SameOpt])
        | none => cases h; exact ⟨some x', rfl, sx⟩
      | some y =>
        cases y' with
        | none => exact absurd sy (by simp [SameOpt])
        | some y' =>
          obtain ⟨o, w, ho, hw, rfl⟩ := mo_some h
          have get : ∀ {v : Val}, OrdOpt op (some v) → OrdVal o v := by
            intro v hv
            obtain ⟨o1, ho1, h1⟩ := hv v rfl
            rw [ho] at ho1
            cases ho1
            exact h1
          obtain ⟨w', hw', hs⟩ := op_same (get hx) (get hx') (get hy) (get hy') sx sy hw
          exact ⟨some w', mo_of ho hw', hs⟩

theorem SameOpt.trans {x y z : Option Val} (h : SameOpt x y) (h' : SameOpt y z) : SameOpt x z := by
  cases x <;> cases y <;> cases z <;> simp_all [SameOpt]
  exact sameVal_trans h h'

/-- Two operands can change places. -/
theorem mo_swap {op : OpName} {o x y z m : Option Val} (ho : OrdOpt op o) (hx : OrdOpt op x) (hy : OrdOpt op y) (h1 : mo op o x = .ok z) (h2 : mo op z y = .ok m) :
    ∃ w m', mo op o y = .ok w ∧ mo op w x = .ok m' ∧ SameOpt m m' := by
  obtain ⟨xy, r, h3, h4, s1⟩ := mo_assoc ho.plain hx.plain hy.plain h1 h2
  obtain ⟨yx, h5, s2⟩ := mo_comm hx.plain hy.plain h3
  obtain ⟨r', h6, s3⟩ := mo_same ho ho (mo_ord hx hy h3) (mo_ord hy hx h5) (SameOpt.refl o) s2 h4
  obtain ⟨w, m', h7, h8, s4⟩ := mo_assoc' ho.plain hy.plain hx.plain h5 h6
  exact ⟨w, m', h7, h8, s1.trans (s3.trans s4)⟩

/-- An entry that demands less than a valid one is valid. -/
theorem weaker_allowed {w m : Entry} (hw : ∀ op, OrdOpt op (w.get op))
    (h : ∀ op v, w.get op = some v → ∃ o v', operators op = some o ∧ m.get op = some v' ∧ Tighter o v v') (hm : Allowed m ∧ NoNull m) : Allowed w ∧ NoNull w := by
  obtain ⟨A, N⟩ := hm
  have has : ∀ op, Has w op → Has m op := fun op ⟨v, hv⟩ => by
    obtain ⟨_, v', _, h', _⟩ := h op v hv
    exact ⟨v', h'⟩
  have up : ∀ op, op = "add" ∨ op = "superset_of" → ∀ v, w.get op = some v → ∃ v', m.get op = some v' ∧ ∀ x ∈ v.elems, x ∈ v'.elems := by
    rintro op (rfl | rfl) v hv <;> (obtain ⟨o, v', ho, h1, h2⟩ := h _ v hv; cases ho; exact ⟨v', h1, h2⟩)
  have down : ∀ op, op = "one_of" ∨ op = "subset_of" → ∀ v, w.get op = some v → ∃ v', m.get op = some v' ∧ ∀ x ∈ v'.elems, x ∈ v.elems := by
    rintro op (rfl | rfl) v hv <;> (obtain ⟨o, v', ho, h1, h2⟩ := h _ v hv; cases ho; exact ⟨v', h1, h2⟩)
  have val : ∀ v, w.get "value" = some v → ∃ v', m.get "value" = some v' ∧ SameVal v v' := by
    intro v hv
    obtain ⟨o, v', ho, h1, h2⟩ := h _ v hv
    cases ho
    exact ⟨v', h1, h2⟩
  have nonnil : ∀ op, op = "add" ∨ op = "superset_of" → w.get op ≠ some .nil := by
    rintro op (rfl | rfl) hv <;> (obtain ⟨o, ho, h1⟩ := hw _ _ hv; cases ho; exact ord_nonnil h1 rfl)
  have valnil : m.get "value" ≠ some .nil → w.get "value" ≠ some .nil := by
    intro hne hv
    obtain ⟨v', h1, h2⟩ := val _ hv
    exact hne (by rw [h1, h2.1.mp rfl])
  refine ⟨⟨?_, ?_, ?_, ?_, ?_, ?_, ?_⟩, ⟨fun _ => nonnil _ (.inr rfl), fun _ => nonnil _ (.inl rfl), fun _ => nonnil _ (.inl rfl), fun hs => valnil (N.value (has _ hs))⟩⟩
  · intro ho
    obtain ⟨a, b, c⟩ := A.oneOfAlone (has _ ho)
    exact ⟨fun h => a (has _ h), fun h => b (has _ h), fun h => c (has _ h)⟩
  · intro s hs he
    obtain ⟨s', h1, h2⟩ := down _ (.inl rfl) s hs
    refine A.oneOfNonempty s' h1 ?_
    cases hse : s'.elems with
    | nil => rfl
    | cons y ys =>
      have := h2 y (by rw [hse]; simp)
      rw [he] at this
      cases this
  · intro s t hs ht x hx
    obtain ⟨s', h1, h2⟩ := up _ (.inr rfl) s hs
    obtain ⟨t', h3, h4⟩ := down _ (.inr rfl) t ht
    exact h4 x (A.supersetInSubset s' t' h1 h3 x (h2 x hx))
  · intro s t hs ht x hx
    obtain ⟨s', h1, h2⟩ := up _ (.inl rfl) s hs
    obtain ⟨t', h3, h4⟩ := down _ (.inr rfl) t ht
    exact h4 x (A.addInSubset s' t' h1 h3 x (h2 x hx))
  · intro s t hs ht x hx
    obtain ⟨s', h1, h2⟩ := up _ (.inl rfl) s hs
    obtain ⟨t', h3, h4⟩ := val t ht
    exact (h4.2 x).mpr (A.addInValue s' t' h1 h3 x (h2 x hx))
  · intro s t hs ht x hx
    obtain ⟨s', h1, h2⟩ := val s hs
    obtain ⟨t', h3, h4⟩ := down _ (.inr rfl) t ht
    exact h4 x (A.valueInSubset s' t' h1 h3 x ((h2.2 x).mp hx))
  · intro hd
    exact valnil (A.defaultNotNull (has _ hd))

end Oidfed
