import Verif.Lemmas.Tighten
/-! Merging entries and policies: commutativity, associativity, independence of the iteration order. -/

namespace Oidfed
open Spec

theorem sameSet_length {a b : List Val} (ha : a.Nodup) (hb : b.Nodup) (h : SameSet a b) : a.length = b.length := by
  have l1 : ∀ {a b : List Val}, a.Nodup → (∀ x ∈ a, x ∈ b) → a.length ≤ b.length := by
    intro a
    induction a with
    | nil => intro b _ _; simp
    | cons y a ih =>
      intro b hn hs
      rw [List.nodup_cons] at hn
      obtain ⟨b1, b2, rfl⟩ := List.append_of_mem (hs y (by simp))
      have : a.length ≤ (b1 ++ b2).length := by
        refine ih hn.2 ?_
        intro z hz
        have := hs z (by simp [hz])
        simp only [List.mem_append, List.mem_cons] at this ⊢
        rcases this with h | h | h
        · exact .inl h
        · subst h; exact absurd hz hn.1
        · exact .inr h
      simp at this ⊢
      omega
  have h1 := l1 ha (fun x hx => (h x).mp hx)
  have h2 := l1 hb (fun x hx => (h x).mpr hx)
  omega

theorem sliceEqual_of_sameVal {a b : Val} (ha : a.elems.Nodup) (hb : b.elems.Nodup) (h : SameVal a b) :
    sliceEqual a b = true :=
  (sliceEqual_iff a b).mpr ⟨h.1, sameSet_length ha hb h.2, fun x hx => (h.2 x).mp hx⟩

theorem sliceEqual_iff_sameVal {a b : Val} (ha : a.elems.Nodup) (hb : b.elems.Nodup) :
    sliceEqual a b = true ↔ SameVal a b := ⟨sliceEqual_sameVal ha, sliceEqual_of_sameVal ha hb⟩

theorem mergeUnion_plain {x y : Val} (hx : ListOrNull x) (hy : ListOrNull y) :
    ∃ z, mergeUnion x y = .ok z ∧ ListOrNull z ∧ (z = .nil ↔ x = .nil ∧ y = .nil) ∧
      ∀ v, v ∈ z.elems ↔ v ∈ x.elems ∨ v ∈ y.elems := by
  rcases hx with rfl | ⟨n, xs, rfl⟩
  · exact ⟨y, rfl, hy, by simp, by simp [Val.elems]⟩
  · rcases hy with rfl | ⟨m, ys, rfl⟩
    · exact ⟨_, rfl, .inr ⟨n, xs, rfl⟩, by simp, by simp [Val.elems]⟩
    · cases hz : mergeUnion (.slice .any n xs) (.slice .any m ys) with
      | error f =>
        exfalso
        simp only [mergeUnion, Val.isNilIface, reflectUnion, slicify, unionSlc] at hz
        by_cases h1 : ys.isEmpty <;> by_cases h2 : xs.isEmpty <;>
          simp_all [castSlc, fitsElem, bind, Except.bind, Except.map]
      | ok z =>
        refine ⟨z, rfl, ?_⟩
        have hz : reflectUnion (.slice .any n xs) (.slice .any m ys) = .ok z := hz
        obtain ⟨sa, k, h1, _, hr, _⟩ := reflectUnion_ok hz
        cases h1
        subst hr
        exact ⟨.inr ⟨_, _, rfl⟩, by simp, fun v => unionElems_mem _ _ v⟩

theorem mergeIntersect_plain {x y : Val} (hx : ListOrNull x) (hy : ListOrNull y) :
    ∃ z, mergeIntersect x y = .ok z ∧ ListOrNull z ∧ (z = .nil ↔ x = .nil ∧ y = .nil) ∧
      ∀ v, v ∈ z.elems ↔ (x ≠ .nil ∨ y ≠ .nil) ∧ (x ≠ .nil → v ∈ x.elems) ∧ (y ≠ .nil → v ∈ y.elems) := by
  rcases hx with rfl | ⟨n, xs, rfl⟩
  · refine ⟨y, rfl, hy, by simp, ?_⟩
    rcases hy with rfl | ⟨m, ys, rfl⟩ <;> simp [Val.elems]
  · rcases hy with rfl | ⟨m, ys, rfl⟩
    · exact ⟨_, rfl, .inr ⟨n, xs, rfl⟩, by simp, by simp [Val.elems]⟩
    · cases hz : mergeIntersect (.slice .any n xs) (.slice .any m ys) with
      | error f =>
        simp [mergeIntersect, Val.isNilIface, reflectIntersect, slicify, intersectSlc, bind, Except.bind, Except.map] at hz
      | ok z =>
        refine ⟨z, rfl, ?_⟩
        have hz : reflectIntersect (.slice .any n xs) (.slice .any m ys) = .ok z := hz
        obtain ⟨sa, h1, _, hr⟩ := reflectIntersect_ok hz
        cases h1
        subst hr
        refine ⟨.inr ⟨_, _, rfl⟩, by simp, ?_⟩
        intro v
        rw [show (Val.slice .any (interElems (Val.slice .any n xs).elems (Val.slice .any m ys).elems).isEmpty
          (interElems (Val.slice .any n xs).elems (Val.slice .any m ys).elems)).elems =
          interElems (Val.slice .any n xs).elems (Val.slice .any m ys).elems from rfl, interElems_mem]
        simp

/-- What a plain entry may have as value of operator `o`. -/
def PlainVal (o : Op) (v : Val) : Prop :=
  match o with
  | .add | .oneOf | .subsetOf | .supersetOf => ListOrNull v
  | .value | .default => v.elems.Nodup
  | .essential => True

theorem essential_merge (x y : Val) :
    mergeEssential x y = .ok (.bool (x.asBool.getD false || y.asBool.getD false)) := by
  unfold mergeEssential
  cases x.asBool <;> cases y.asBool <;> simp

theorem mergeValue_iff {x y : Val} (hx : x.elems.Nodup) (hy : y.elems.Nodup) {z : Val} :
    mergeValue x y = .ok z ↔ SameVal x y ∧ z = x := by
  constructor
  · intro h
    obtain ⟨h1, h2⟩ := mergeValue_ok h
    exact ⟨sliceEqual_sameVal hx h2, h1⟩
  · rintro ⟨h, rfl⟩
    unfold mergeValue
    rw [if_pos (sliceEqual_of_sameVal hx hy h)]

theorem mergeDefault_iff {x y : Val} (hx : x.elems.Nodup) (hy : y.elems.Nodup) {z : Val} :
    mergeDefault x y = .ok z ↔ (x = .nil ∧ z = y) ∨ (x ≠ .nil ∧ y = .nil ∧ z = x) ∨
      (x ≠ .nil ∧ y ≠ .nil ∧ SameVal x y ∧ z = x) := by
  constructor
  · intro h
    rcases mergeDefault_ok h with h | h | ⟨h1, h2, h3, h4⟩
    · exact .inl h
    · exact .inr (.inl h)
    · exact .inr (.inr ⟨h1, h2, sliceEqual_sameVal hx h4, h3⟩)
  · rintro (⟨rfl, rfl⟩ | ⟨h1, rfl, rfl⟩ | ⟨h1, h2, h3, rfl⟩)
    · rfl
    · unfold mergeDefault
      rw [if_neg (by rw [isNilIface_iff]; exact h1), if_pos (show Val.nil.isNilIface = true from rfl)]
    · unfold mergeDefault
      rw [if_neg (by rw [isNilIface_iff]; exact h1), if_neg (by rw [isNilIface_iff]; exact h2),
        if_pos (sliceEqual_of_sameVal hx hy h3)]

theorem op_plain {o : Op} {x y z : Val} (hx : PlainVal o x) (hy : PlainVal o y) (h : o.merge x y = .ok z) :
    PlainVal o z := by
  cases o with
  | add | supersetOf =>
    obtain ⟨z', h1, h2, _⟩ := mergeUnion_plain hx hy
    have := h1.symm.trans h
    cases this
    exact h2
  | oneOf | subsetOf =>
    obtain ⟨z', h1, h2, _⟩ := mergeIntersect_plain hx hy
    have := h1.symm.trans h
    cases this
    exact h2
  | value => rw [((mergeValue_iff hx hy).mp h).2]; exact hx
  | default =>
    rcases (mergeDefault_iff hx hy).mp h with ⟨_, rfl⟩ | ⟨_, _, rfl⟩ | ⟨_, _, _, rfl⟩
    · exact hy
    · exact hx
    · exact hx
  | essential => trivial

theorem op_comm {o : Op} {x y z : Val} (hx : PlainVal o x) (hy : PlainVal o y) (h : o.merge x y = .ok z) :
    ∃ z', o.merge y x = .ok z' ∧ SameVal z z' := by
  cases o with
  | add | supersetOf =>
    obtain ⟨z1, h1, _, h2, h3⟩ := mergeUnion_plain hx hy
    obtain ⟨z2, k1, _, k2, k3⟩ := mergeUnion_plain hy hx
    have := h1.symm.trans h
    cases this
    exact ⟨z2, k1, by rw [h2, k2]; exact and_comm, fun v => by rw [h3, k3]; exact or_comm⟩
  | oneOf | subsetOf =>
    obtain ⟨z1, h1, _, h2, h3⟩ := mergeIntersect_plain hx hy
    obtain ⟨z2, k1, _, k2, k3⟩ := mergeIntersect_plain hy hx
    have := h1.symm.trans h
    cases this
    exact ⟨z2, k1, by rw [h2, k2]; exact and_comm, fun v => by
      rw [h3, k3]
      constructor <;> rintro ⟨a, b, c⟩ <;> exact ⟨a.symm, c, b⟩⟩
  | value =>
    obtain ⟨h1, rfl⟩ := (mergeValue_iff hx hy).mp h
    exact ⟨y, (mergeValue_iff hy hx).mpr ⟨h1.symm, rfl⟩, h1⟩
  | default =>
    rcases (mergeDefault_iff hx hy).mp h with ⟨rfl, rfl⟩ | ⟨h1, rfl, rfl⟩ | ⟨h1, h2, h3, rfl⟩
    · refine ⟨z, (mergeDefault_iff hy hx).mpr ?_, SameVal.refl _⟩
      by_cases hz : z = .nil
      · exact .inl ⟨hz, hz⟩
      · exact .inr (.inl ⟨hz, rfl, rfl⟩)
    · exact ⟨z, (mergeDefault_iff hy hx).mpr (.inl ⟨rfl, rfl⟩), SameVal.refl _⟩
    · exact ⟨y, (mergeDefault_iff hy hx).mpr (.inr (.inr ⟨h2, h1, h3.symm, rfl⟩)), h3⟩
  | essential =>
    have h : mergeEssential x y = .ok z := h
    rw [essential_merge] at h
    refine ⟨_, essential_merge y x, ?_⟩
    cases h
    rw [Bool.or_comm]
    exact SameVal.refl _

theorem op_assoc {o : Op} {x y c xy r : Val} (hx : PlainVal o x) (hy : PlainVal o y) (hc : PlainVal o c)
    (h1 : o.merge x y = .ok xy) (h2 : o.merge xy c = .ok r) :
    ∃ yc r', o.merge y c = .ok yc ∧ o.merge x yc = .ok r' ∧ SameVal r r' := by
  have hxy := op_plain hx hy h1
  cases o with
  | add | supersetOf =>
    obtain ⟨z1, a1, a0, a2, a3⟩ := mergeUnion_plain hx hy
    cases a1.symm.trans h1
    obtain ⟨z2, b1, b0, b2, b3⟩ := mergeUnion_plain hxy hc
    cases b1.symm.trans h2
    obtain ⟨z3, c1, c0, c2, c3⟩ := mergeUnion_plain hy hc
    obtain ⟨z4, d1, d0, d2, d3⟩ := mergeUnion_plain hx c0
    exact ⟨z3, z4, c1, d1, by rw [b2, a2, d2, c2, and_assoc], fun v => by rw [b3, a3, d3, c3, or_assoc]⟩
  | oneOf | subsetOf =>
    obtain ⟨z1, a1, a0, a2, a3⟩ := mergeIntersect_plain hx hy
    cases a1.symm.trans h1
    obtain ⟨z2, b1, b0, b2, b3⟩ := mergeIntersect_plain hxy hc
    cases b1.symm.trans h2
    obtain ⟨z3, c1, c0, c2, c3⟩ := mergeIntersect_plain hy hc
    obtain ⟨z4, d1, d0, d2, d3⟩ := mergeIntersect_plain hx c0
    refine ⟨z3, z4, c1, d1, by rw [b2, a2, d2, c2, and_assoc], fun v => ?_⟩
    rw [b3, a3, d3, c3]
    simp only [ne_eq, a2, c2]
    by_cases e1 : x = .nil <;> by_cases e2 : y = .nil <;> by_cases e3 : c = .nil <;> simp [e1, e2, e3, and_assoc]
  | value =>
    obtain ⟨a1, rfl⟩ := (mergeValue_iff hx hy).mp h1
    obtain ⟨b1, rfl⟩ := (mergeValue_iff hx hc).mp h2
    exact ⟨y, r, (mergeValue_iff hy hc).mpr ⟨a1.symm.trans b1, rfl⟩, (mergeValue_iff hx hy).mpr ⟨a1, rfl⟩, SameVal.refl _⟩
  | default =>
    rcases (mergeDefault_iff hx hy).mp h1 with ⟨rfl, rfl⟩ | ⟨a1, rfl, rfl⟩ | ⟨a1, a2, a3, rfl⟩
    · have hr := op_plain (o := .default) hy hc h2
      exact ⟨r, r, h2, (mergeDefault_iff hx hr).mpr (.inl ⟨rfl, rfl⟩), SameVal.refl _⟩
    · exact ⟨c, r, (mergeDefault_iff hy hc).mpr (.inl ⟨rfl, rfl⟩), h2, SameVal.refl _⟩
    · rcases (mergeDefault_iff hx hc).mp h2 with ⟨b1, _⟩ | ⟨b1, rfl, rfl⟩ | ⟨b1, b2, b3, rfl⟩
      · exact absurd b1 a1
      · exact ⟨y, r, (mergeDefault_iff hy hc).mpr (.inr (.inl ⟨a2, rfl, rfl⟩)), h1, SameVal.refl _⟩
      · exact ⟨y, r, (mergeDefault_iff hy hc).mpr (.inr (.inr ⟨a2, b2, a3.symm.trans b3, rfl⟩)), h1, SameVal.refl _⟩
  | essential =>
    have h1 : mergeEssential x y = .ok xy := h1
    have h2 : mergeEssential xy c = .ok r := h2
    refine ⟨_, _, essential_merge y c, essential_merge x _, ?_⟩
    rw [essential_merge] at h1 h2
    cases h1
    cases h2
    simp only [Val.asBool, Option.getD_some, Bool.or_assoc]
    exact SameVal.refl _

theorem op_assoc' {o : Op} {x y c yc r : Val} (hx : PlainVal o x) (hy : PlainVal o y) (hc : PlainVal o c)
    (h1 : o.merge y c = .ok yc) (h2 : o.merge x yc = .ok r) :
    ∃ xy r', o.merge x y = .ok xy ∧ o.merge xy c = .ok r' ∧ SameVal r r' := by
  have hyc := op_plain hy hc h1
  cases o with
  | add | supersetOf =>
    obtain ⟨z1, a1, a0, _⟩ := mergeUnion_plain hx hy
    obtain ⟨z2, b1, b0, _⟩ := mergeUnion_plain a0 hc
    refine ⟨z1, z2, a1, b1, ?_⟩
    obtain ⟨z3, z4, c1, d1, hs⟩ := op_assoc (o := .add) hx hy hc a1 b1
    cases c1.symm.trans h1
    cases d1.symm.trans h2
    exact hs.symm
  | oneOf | subsetOf =>
    obtain ⟨z1, a1, a0, _⟩ := mergeIntersect_plain hx hy
    obtain ⟨z2, b1, b0, _⟩ := mergeIntersect_plain a0 hc
    refine ⟨z1, z2, a1, b1, ?_⟩
    obtain ⟨z3, z4, c1, d1, hs⟩ := op_assoc (o := .oneOf) hx hy hc a1 b1
    cases c1.symm.trans h1
    cases d1.symm.trans h2
    exact hs.symm
  | value =>
    obtain ⟨a1, rfl⟩ := (mergeValue_iff hy hc).mp h1
    obtain ⟨b1, rfl⟩ := (mergeValue_iff hx hy).mp h2
    exact ⟨r, r, (mergeValue_iff hx hy).mpr ⟨b1, rfl⟩, (mergeValue_iff hx hc).mpr ⟨b1.trans a1, rfl⟩, SameVal.refl _⟩
  | default =>
    rcases (mergeDefault_iff hy hc).mp h1 with ⟨rfl, rfl⟩ | ⟨a1, rfl, rfl⟩ | ⟨a1, a2, a3, rfl⟩
    · refine ⟨x, r, (mergeDefault_iff hx hy).mpr ?_, h2, SameVal.refl _⟩
      by_cases hn : x = .nil
      · exact .inl ⟨hn, hn⟩
      · exact .inr (.inl ⟨hn, rfl, rfl⟩)
    · have hr := op_plain (o := .default) hx hy h2
      refine ⟨r, r, h2, (mergeDefault_iff hr hc).mpr ?_, SameVal.refl _⟩
      by_cases hn : r = .nil
      · exact .inl ⟨hn, hn⟩
      · exact .inr (.inl ⟨hn, rfl, rfl⟩)
    · rcases (mergeDefault_iff hx hy).mp h2 with ⟨rfl, rfl⟩ | ⟨_, b1, _⟩ | ⟨b1, b2, b3, rfl⟩
      · exact ⟨r, r, h2, h1, SameVal.refl _⟩
      · exact absurd b1 a1
      · exact ⟨r, r, h2, (mergeDefault_iff hx hc).mpr (.inr (.inr ⟨b1, a2, b3.trans a3, rfl⟩)), SameVal.refl _⟩
  | essential =>
    have h1 : mergeEssential y c = .ok yc := h1
    have h2 : mergeEssential x yc = .ok r := h2
    refine ⟨_, _, essential_merge x y, essential_merge _ c, ?_⟩
    rw [essential_merge] at h1 h2
    cases h1
    cases h2
    simp only [Val.asBool, Option.getD_some, Bool.or_assoc]
    exact SameVal.refl _

/-! ## Entries -/

/-- Merging the (optional) values of one operator. -/
def mo (op : OpName) (x y : Option Val) : Res (Option Val) :=
  match x, y with
  | none, y => .ok y
  | some x, none => .ok (some x)
  | some x, some y =>
    match operators op with
    | none => .error .error
    | some o => (o.merge x y).map some

theorem mo_some {op : OpName} {x y : Val} {z : Option Val} (h : mo op (some x) (some y) = .ok z) :
    ∃ o w, operators op = some o ∧ o.merge x y = .ok w ∧ z = some w := by
  unfold mo at h
  dsimp only at h
  cases ho : operators op with
  | none => rw [ho] at h; cases h
  | some o =>
    rw [ho] at h
    dsimp only at h
    cases hm : o.merge x y with
    | error f => rw [hm] at h; cases h
    | ok w => rw [hm] at h; exact ⟨o, w, rfl, hm, (Except.ok.inj h).symm⟩

theorem mo_of {op : OpName} {o : Op} {x y w : Val} (ho : operators op = some o) (h : o.merge x y = .ok w) :
    mo op (some x) (some y) = .ok (some w) := by
  unfold mo
  simp [ho, h, Except.map]

theorem entry_ok_iff {a b : Entry} (hk : KnownOps a) (hw : a.WF) :
    (∃ m, mergeEntries a b = .ok m) ↔ ∀ op, ∃ z, mo op (a.get op) (b.get op) = .ok z := by
  rw [mergeEntries_ok_iff (noShared_of_known hk) hw]
  constructor
  · intro h op
    cases hx : a.get op with
    | none => exact ⟨_, rfl⟩
    | some x =>
      cases hy : b.get op with
      | none => exact ⟨_, rfl⟩
      | some y =>
        obtain ⟨o, z, h1, h2⟩ := h op x y hx hy
        exact ⟨_, mo_of h1 h2⟩
  · intro h op x y hx hy
    obtain ⟨z, hz⟩ := h op
    rw [hx, hy] at hz
    obtain ⟨o, w, h1, h2, _⟩ := mo_some hz
    exact ⟨o, w, h1, h2⟩

theorem entry_get {a b m : Entry} (hk : KnownOps a) (hw : a.WF) (h : mergeEntries a b = .ok m) (op : OpName) :
    mo op (a.get op) (b.get op) = .ok (m.get op) := by
  obtain ⟨z, hz⟩ := (entry_ok_iff hk hw).mp ⟨m, h⟩ op
  rw [mergeEntries_get h (noShared_of_known hk) hw op]
  cases hx : a.get op with
  | none => rfl
  | some x =>
    cases hy : b.get op with
    | none => rfl
    | some y =>
      rw [hx, hy] at hz
      obtain ⟨o, w, h1, h2, _⟩ := mo_some hz
      rw [mo_of h1 h2]
      simp [mergedVal, h1, h2]

/-- Same optional values. -/
def SameOpt (x y : Option Val) : Prop :=
  match x, y with
  | none, none => True
  | some x, some y => SameVal x y
  | _, _ => False

theorem sameEntry_iff (a b : Entry) : SameEntry a b ↔ ∀ op, SameOpt (a.get op) (b.get op) := by
  unfold SameEntry SameOpt Has
  constructor
  · intro h op
    obtain ⟨h1, h2⟩ := h op
    cases hx : a.get op <;> cases hy : b.get op <;> simp_all
  · intro h op
    have := h op
    cases hx : a.get op <;> cases hy : b.get op <;> simp_all

theorem SameOpt.refl (x : Option Val) : SameOpt x x := by
  cases x with
  | none => trivial
  | some x => exact SameVal.refl x

theorem SameOpt.symm {x y : Option Val} (h : SameOpt x y) : SameOpt y x := by
  cases x <;> cases y <;> simp_all [SameOpt]
  exact h.symm

/-- Optional values allowed for an operator name. -/
def PlainOpt (op : OpName) (x : Option Val) : Prop := ∀ o v, operators op = some o → x = some v → PlainVal o v

theorem plain_opt {e : Entry} (h : PlainEntry e) (op : OpName) : PlainOpt op (e.get op) := by
  intro o v ho hv
  unfold operators at ho
  repeat' split at ho
  all_goals first | cases ho | skip
  all_goals rename_i hop
  all_goals subst hop
  all_goals first
    | exact h.lists _ _ (by decide) hv
    | exact h.nodup v hv
    | exact h.nodupDefault v hv
    | trivial

theorem mo_comm {op : OpName} {x y z : Option Val} (hx : PlainOpt op x) (hy : PlainOpt op y)
    (h : mo op x y = .ok z) : ∃ z', mo op y x = .ok z' ∧ SameOpt z z' := by
  cases x with
  | none => cases h; cases y <;> exact ⟨_, rfl, SameOpt.refl _⟩
  | some x =>
    cases y with
    | none => cases h; exact ⟨_, rfl, SameOpt.refl _⟩
    | some y =>
      obtain ⟨o, w, h1, h2, rfl⟩ := mo_some h
      obtain ⟨w', h3, h4⟩ := op_comm (hx o x h1 rfl) (hy o y h1 rfl) h2
      exact ⟨_, mo_of h1 h3, h4⟩

theorem mo_plain {op : OpName} {x y z : Option Val} (hx : PlainOpt op x) (hy : PlainOpt op y)
    (h : mo op x y = .ok z) : PlainOpt op z := by
  cases x with
  | none => cases h; exact hy
  | some x =>
    cases y with
    | none => cases h; exact hx
    | some y =>
      obtain ⟨o, w, h1, h2, rfl⟩ := mo_some h
      intro o' v ho hv
      cases hv
      rw [h1] at ho
      cases ho
      exact op_plain (hx o x h1 rfl) (hy o y h1 rfl) h2

theorem mo_none_right (op : OpName) (x : Option Val) : mo op x none = .ok x := by cases x <;> rfl

theorem mo_assoc {op : OpName} {x y c xy r : Option Val} (hx : PlainOpt op x) (hy : PlainOpt op y) (hc : PlainOpt op c)
    (h1 : mo op x y = .ok xy) (h2 : mo op xy c = .ok r) :
    ∃ yc r', mo op y c = .ok yc ∧ mo op x yc = .ok r' ∧ SameOpt r r' := by
  cases x with
  | none => cases h1; exact ⟨r, r, h2, rfl, SameOpt.refl _⟩
  | some x =>
    cases y with
    | none => cases h1; exact ⟨c, r, rfl, h2, SameOpt.refl _⟩
    | some y =>
      obtain ⟨o, w, k1, k2, rfl⟩ := mo_some h1
      cases c with
      | none => cases h2; exact ⟨_, _, rfl, h1, SameOpt.refl _⟩
      | some c =>
        obtain ⟨o', w', k1', k2', rfl⟩ := mo_some h2
        rw [k1] at k1'
        cases k1'
        obtain ⟨yc, r', h3, h4, h5⟩ := op_assoc (hx o x k1 rfl) (hy o y k1 rfl) (hc o c k1 rfl) k2 k2'
        exact ⟨_, _, mo_of k1 h3, mo_of k1 h4, h5⟩

theorem mo_assoc' {op : OpName} {x y c yc r : Option Val} (hx : PlainOpt op x) (hy : PlainOpt op y) (hc : PlainOpt op c)
    (h1 : mo op y c = .ok yc) (h2 : mo op x yc = .ok r) :
    ∃ xy r', mo op x y = .ok xy ∧ mo op xy c = .ok r' ∧ SameOpt r r' := by
  cases y with
  | none => cases h1; exact ⟨x, r, mo_none_right op x, h2, SameOpt.refl _⟩
  | some y =>
    cases c with
    | none => cases h1; exact ⟨r, r, h2, mo_none_right op r, SameOpt.refl _⟩
    | some c =>
      obtain ⟨o, w, k1, k2, rfl⟩ := mo_some h1
      cases x with
      | none => cases h2; exact ⟨some y, some w, rfl, h1, SameOpt.refl _⟩
      | some x =>
        obtain ⟨o', w', k1', k2', rfl⟩ := mo_some h2
        rw [k1] at k1'
        cases k1'
        obtain ⟨yc, r', h3, h4, h5⟩ := op_assoc' (hx o x k1 rfl) (hy o y k1 rfl) (hc o c k1 rfl) k2 k2'
        exact ⟨_, _, mo_of k1 h3, mo_of k1 h4, h5⟩

theorem merge_comm {a b m : Entry} (ha : PlainEntry a) (hb : PlainEntry b) (h : mergeEntries a b = .ok m) :
    ∃ m', mergeEntries b a = .ok m' ∧ SameEntry m m' := by
  have hg := entry_get ha.known ha.wf h
  have hc := fun op => mo_comm (plain_opt ha op) (plain_opt hb op) (hg op)
  obtain ⟨m', hm'⟩ := (entry_ok_iff (b := a) hb.known hb.wf).mpr (fun op => (hc op).imp fun _ h => h.1)
  refine ⟨m', hm', (sameEntry_iff m m').mpr (fun op => ?_)⟩
  obtain ⟨z', h1, h2⟩ := hc op
  have := h1.symm.trans (entry_get hb.known hb.wf hm' op)
  cases this
  exact h2

theorem merge_plain {a b m : Entry} (ha : PlainEntry a) (hb : PlainEntry b) (h : mergeEntries a b = .ok m) :
    PlainEntry m := by
  refine ⟨merge_good ha.toGoodEntry hb.toGoodEntry h, ?_⟩
  intro op s hop hs
  have hp := mo_plain (plain_opt ha op) (plain_opt hb op) (entry_get ha.known ha.wf h op)
  rcases hop with rfl | rfl | rfl | rfl
  · exact hp .add s rfl hs
  · exact hp .oneOf s rfl hs
  · exact hp .subsetOf s rfl hs
  · exact hp .supersetOf s rfl hs

theorem merge_assoc {a b c ab r : Entry} (ha : PlainEntry a) (hb : PlainEntry b) (hc : PlainEntry c)
    (h1 : mergeEntries a b = .ok ab) (h2 : mergeEntries ab c = .ok r) :
    ∃ bc r', mergeEntries b c = .ok bc ∧ mergeEntries a bc = .ok r' ∧ SameEntry r r' := by
  have hab := merge_plain ha hb h1
  have A := fun op => mo_assoc (plain_opt ha op) (plain_opt hb op) (plain_opt hc op)
    (entry_get ha.known ha.wf h1 op) (entry_get hab.known hab.wf h2 op)
  obtain ⟨bc, hbc⟩ := (entry_ok_iff (b := c) hb.known hb.wf).mpr (fun op => by
    obtain ⟨yc, _, h, _⟩ := A op
    exact ⟨yc, h⟩)
  have hg := entry_get hb.known hb.wf hbc
  have A' : ∀ op, ∃ r', mo op (a.get op) (bc.get op) = .ok r' ∧ SameOpt (r.get op) r' := by
    intro op
    obtain ⟨yc, r', k1, k2, k3⟩ := A op
    cases k1.symm.trans (hg op)
    exact ⟨r', k2, k3⟩
  obtain ⟨r', hr'⟩ := (entry_ok_iff (b := bc) ha.known ha.wf).mpr (fun op => (A' op).imp fun _ h => h.1)
  refine ⟨bc, r', hbc, hr', (sameEntry_iff r r').mpr (fun op => ?_)⟩
  obtain ⟨z', k1, k2⟩ := A' op
  cases k1.symm.trans (entry_get ha.known ha.wf hr' op)
  exact k2

theorem merge_assoc' {a b c bc r : Entry} (ha : PlainEntry a) (hb : PlainEntry b) (hc : PlainEntry c)
    (h1 : mergeEntries b c = .ok bc) (h2 : mergeEntries a bc = .ok r) :
    ∃ ab r', mergeEntries a b = .ok ab ∧ mergeEntries ab c = .ok r' ∧ SameEntry r r' := by
  have A := fun op => mo_assoc' (plain_opt ha op) (plain_opt hb op) (plain_opt hc op)
    (entry_get hb.known hb.wf h1 op) (entry_get ha.known ha.wf h2 op)
  obtain ⟨ab, hab⟩ := (entry_ok_iff (b := b) ha.known ha.wf).mpr (fun op => by
    obtain ⟨yc, _, h, _⟩ := A op
    exact ⟨yc, h⟩)
  have hg := entry_get ha.known ha.wf hab
  have hpl := merge_plain ha hb hab
  have A' : ∀ op, ∃ r', mo op (ab.get op) (c.get op) = .ok r' ∧ SameOpt (r.get op) r' := by
    intro op
    obtain ⟨xy, r', k1, k2, k3⟩ := A op
    cases k1.symm.trans (hg op)
    exact ⟨r', k2, k3⟩
  obtain ⟨r', hr'⟩ := (entry_ok_iff (b := c) hpl.known hpl.wf).mpr (fun op => (A' op).imp fun _ h => h.1)
  refine ⟨ab, r', hab, hr', (sameEntry_iff r r').mpr (fun op => ?_)⟩
  obtain ⟨z', k1, k2⟩ := A' op
  cases k1.symm.trans (entry_get hpl.known hpl.wf hr' op)
  exact k2

/-! ## Verification of same entries -/

theorem Spec.SameEntry.symm {a b : Entry} (h : SameEntry a b) : SameEntry b a :=
  fun op => ⟨(h op).1.symm, fun x y hx hy => ((h op).2 y x hy hx).symm⟩

theorem Spec.SameEntry.refl (a : Entry) : SameEntry a a :=
  fun op => ⟨Iff.rfl, fun x y hx hy => by rw [hx] at hy; cases hy; exact SameVal.refl x⟩

theorem Spec.SameEntry.get {a b : Entry} (h : SameEntry a b) {op : String} {y : Val} (hy : b.get op = some y) :
    ∃ x, a.get op = some x ∧ SameVal x y := by
  obtain ⟨x, hx⟩ := (h op).1.mpr ⟨y, hy⟩
  exact ⟨x, hx, (h op).2 x y hx hy⟩

theorem same_allowed {a b : Entry} (h : SameEntry a b) (ha : Allowed a ∧ NoNull a) : Allowed b ∧ NoNull b := by
  obtain ⟨A, N⟩ := ha
  have hh := fun op => (h op).1
  have hn : ∀ op, a.get op ≠ some .nil → b.get op ≠ some .nil := by
    intro op hne hb
    obtain ⟨x, hx, hs⟩ := h.get hb
    exact hne (by rw [hx, hs.1.mpr rfl])
  have hsub : ∀ i o, (∀ s t, a.get i = some s → a.get o = some t → ∀ x ∈ s.elems, x ∈ t.elems) →
      ∀ s t, b.get i = some s → b.get o = some t → ∀ x ∈ s.elems, x ∈ t.elems := by
    intro i o hao s t hs ht x hx
    obtain ⟨s', hs', hss⟩ := h.get hs
    obtain ⟨t', ht', hts⟩ := h.get ht
    exact (hts.2 x).mp (hao s' t' hs' ht' x ((hss.2 x).mpr hx))
  refine ⟨⟨?_, ?_, hsub _ _ A.supersetInSubset, hsub _ _ A.addInSubset, hsub _ _ A.addInValue, hsub _ _ A.valueInSubset, ?_⟩,
    ⟨?_, ?_, ?_, ?_⟩⟩
  · rw [← hh, ← hh, ← hh, ← hh]; exact A.oneOfAlone
  · intro s hs he
    obtain ⟨s', hs', hss⟩ := h.get hs
    refine A.oneOfNonempty s' hs' ?_
    cases hse : s'.elems with
    | nil => rfl
    | cons y ys =>
      have := (hss.2 y).mp (by rw [hse]; simp)
      rw [he] at this
      cases this
  · intro hd; rw [← hh] at hd; exact hn _ (A.defaultNotNull hd)
  · intro hd; rw [← hh] at hd; exact hn _ (N.superset hd)
  · intro hd; rw [← hh] at hd; exact hn _ (N.add hd)
  · intro hd; rw [← hh] at hd; exact hn _ (N.addValue hd)
  · intro hd; rw [← hh] at hd; exact hn _ (N.value hd)

theorem same_known {a b : Entry} (h : SameEntry a b) (hk : KnownOps a) : KnownOps b :=
  fun n hn => hk n ((h n).1.mpr hn)

theorem same_verify {a b : Entry} (h : SameEntry a b) (hk : KnownOps a) (hv : a.verify = .ok ()) : b.verify = .ok () :=
  (verify_iff_allowed (same_known h hk)).mpr (same_allowed h ((verify_iff_allowed hk).mp hv))

/-! ## Policies -/

theorem policy_verify_of_get {p : Policy} (hw : AMap.WF p)
    (h : ∀ k e, AMap.get p k = some e → e.verify = .ok ()) : Policy.verify p = .ok () :=
  (policy_verify_iff p).mpr (fun kv hkv => h kv.1 kv.2 (mem_get hw hkv))

theorem same_policy_verify {p q : Policy} (hq : AMap.WF q) (h : SamePolicy p q)
    (hk : ∀ k e, AMap.get p k = some e → KnownOps e) (hv : Policy.verify p = .ok ()) : Policy.verify q = .ok () := by
  refine policy_verify_of_get hq ?_
  intro k e he
  obtain ⟨h1, h2⟩ := h k
  rw [he] at h1
  cases hp : AMap.get p k with
  | none => rw [hp] at h1; cases h1
  | some a => exact same_verify (h2 a e hp he) (hk k a hp) (policy_verify_get hv hp)

theorem combinePolicy_of {par sub : Policy} (hp : par ≠ []) (hs : sub ≠ [])
    (hm : ∀ k x y, (k, x) ∈ par → AMap.get sub k = some y → ∃ z, mergeEntries x y = .ok z) :
    ∃ m, (∀ k, AMap.get m k = mergedEntry (AMap.get par k) (AMap.get sub k)) ∧
      (AMap.WF par → AMap.WF sub → AMap.WF m) ∧
      (Policy.verify m = .ok () → combinePolicy par sub = .ok m) := by
  obtain ⟨out', hl⟩ := combineLoop_of (sub := sub) (par := par) [] hm
  obtain ⟨⟨res, hr, hg⟩, _, hkeys⟩ := combineLoop_ok hl
  simp only [List.nil_append] at hr
  subst hr
  refine ⟨out' ++ sub.filter (fun kv => (AMap.get out' kv.1).isNone), ?_, ?_, ?_⟩
  · intro k
    rw [get_append, get_filter sub (fun k => (AMap.get out' k).isNone) k, hg k]
    cases hpk : AMap.get par k with
    | none => simp [mergedEntry]
    | some x =>
      cases hsk : AMap.get sub k with
      | none => simp [mergedEntry]
      | some y =>
        obtain ⟨z, hz⟩ := hm k x y (get_mem hpk) hsk
        simp [mergedEntry, hz]
  · intro hwp hws
    refine append_wf ?_ (filter_keys_wf hws _) ?_
    · unfold AMap.WF
      rw [hkeys]
      exact hwp
    · intro k hk
      unfold AMap.keys at hk
      rw [List.mem_map] at hk
      obtain ⟨kv, hkv, rfl⟩ := hk
      rw [List.mem_filter] at hkv
      simpa using hkv.2
  · intro hv
    unfold combinePolicy
    rw [if_neg (by simpa using hs), if_neg (by simpa using hp), hl]
    simp [bind, Except.bind, hv]

theorem combine_comm {p q m : Policy} (hp : PlainPolicy p) (hq : PlainPolicy q) (h : combinePolicy p q = .ok m) :
    ∃ m', combinePolicy q p = .ok m' ∧ SamePolicy m m' := by
  have hrefl : ∀ m : Policy, SamePolicy m m := fun m k =>
    ⟨rfl, fun a b ha hb => by rw [ha] at hb; cases hb; exact SameEntry.refl a⟩
  by_cases hqe : q = []
  · subst hqe
    have hm : combinePolicy p [] = .ok p := rfl
    rw [hm] at h
    cases h
    by_cases hpe : p = []
    · subst hpe; exact ⟨[], rfl, hrefl _⟩
    · refine ⟨p, ?_, hrefl _⟩
      unfold combinePolicy
      rw [if_neg (by simpa using hpe)]
      rfl
  · by_cases hpe : p = []
    · subst hpe
      have : combinePolicy [] q = .ok q := by
        unfold combinePolicy
        rw [if_neg (by simpa using hqe)]
        rfl
      rw [this] at h
      cases h
      exact ⟨q, rfl, hrefl _⟩
    · obtain ⟨hg, hv, hm, hw, _⟩ := combinePolicy_nonempty hpe hqe h
      have hcomm : ∀ k x y, AMap.get p k = some x → AMap.get q k = some y →
          ∃ z z', mergeEntries x y = .ok z ∧ mergeEntries y x = .ok z' ∧ SameEntry z z' := by
        intro k x y hx hy
        obtain ⟨z, hz⟩ := hm k x y (get_mem hx) hy
        obtain ⟨z', hz', hs⟩ := merge_comm (hp.entries k x hx) (hq.entries k y hy) hz
        exact ⟨z, z', hz, hz', hs⟩
      obtain ⟨m', hg', hw', hv'⟩ := combinePolicy_of hqe hpe (fun k y x hy hx => by
        obtain ⟨z, z', _, h2, _⟩ := hcomm k x y hx (mem_get hq.wf hy)
        exact ⟨z', h2⟩)
      have hsame : SamePolicy m m' := by
        intro k
        rw [hg, hg']
        cases hx : AMap.get p k with
        | none =>
          cases hy : AMap.get q k with
          | none => simp [mergedEntry]
          | some y => simp [mergedEntry]; exact SameEntry.refl y
        | some x =>
          cases hy : AMap.get q k with
          | none => simp [mergedEntry]; exact SameEntry.refl x
          | some y =>
            obtain ⟨z, z', h1, h2, h3⟩ := hcomm k x y hx hy
            simp [mergedEntry, h1, h2]
            exact h3
      have hkn : ∀ k e, AMap.get m k = some e → KnownOps e := by
        intro k e he
        rw [hg] at he
        cases hx : AMap.get p k with
        | none =>
          rw [hx] at he
          exact (hq.entries k e he).known
        | some x =>
          cases hy : AMap.get q k with
          | none =>
            rw [hx, hy] at he
            cases he
            exact (hp.entries k _ hx).known
          | some y =>
            obtain ⟨z, z', h1, _⟩ := hcomm k x y hx hy
            rw [hx, hy] at he
            simp only [mergedEntry, h1] at he
            cases he
            exact (merge_plain (hp.entries k x hx) (hq.entries k y hy) h1).known
      exact ⟨m', hv' (same_policy_verify (hw' hq.wf hp.wf) hsame hkn hv), hsame⟩

end Oidfed
