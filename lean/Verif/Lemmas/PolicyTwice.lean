import Verif.Spec.PolicyTwice
import Verif.Lemmas.MergeOrder
/-!
# Merging a policy that was merged before
-/

namespace Oidfed
open Spec

/-- A JSON array as merging leaves it: an empty one is nil. -/
def nl (xs : List Val) : Val := .slice .any xs.isEmpty xs

theorem mergeIntersect_nl (xs ys : List Val) : mergeIntersect (nl xs) (nl ys) = .ok (nl (interElems xs ys)) := by
  simp [mergeIntersect, nl, Val.isNilIface, reflectIntersect, slicify, intersectSlc, bind, Except.bind, Except.map, interElems, Slc.toVal]

theorem mergeUnion_nl (xs ys : List Val) : mergeUnion (nl xs) (nl ys) = .ok (nl (unionElems xs ys)) := by
  cases ys with
  | nil => cases xs <;> simp [mergeUnion, nl, Val.isNilIface, reflectUnion, slicify, unionSlc, Except.map, unionElems, Slc.toVal]
  | cons y ys =>
    cases xs with
    | nil => simp [mergeUnion, nl, Val.isNilIface, reflectUnion, slicify, unionSlc, bind, Except.bind, Except.map, unionElems, Slc.toVal, castSlc, fitsElem]
    | cons x xs =>
      have : (unionLoop (x :: xs) (y :: ys)).isEmpty = false := by
        have := unionLoop_mem (y :: ys) (x :: xs) x
        cases h : unionLoop (x :: xs) (y :: ys) with
        | nil => rw [h] at this; simp at this
        | cons _ _ => rfl
      simp [mergeUnion, nl, Val.isNilIface, reflectUnion, slicify, unionSlc, bind, Except.bind, Except.map, unionElems, Slc.toVal, this]

/-- Operands as they occur while proper policies are merged. -/
def NormVal (o : Op) (v : Val) : Prop :=
  match o with
  | .add | .oneOf | .subsetOf | .supersetOf => v = .nil ∨ ∃ xs, v = nl xs
  | .value | .default => True
  | .essential => ∃ b, v = .bool b

theorem sliceEqual_refl (a : Val) : sliceEqual a a = true := (sliceEqual_iff a a).mpr ⟨Iff.rfl, rfl, fun _ h => h⟩

theorem intersect_laws : (∀ {x e z : Val}, (x = .nil ∨ ∃ xs, x = nl xs) → (e = .nil ∨ ∃ xs, e = nl xs) → mergeIntersect x e = .ok z →
      (z = .nil ∨ ∃ xs, z = nl xs) ∧ mergeIntersect z e = .ok z) ∧
    (∀ {e : Val}, (e = .nil ∨ ∃ xs, e = nl xs) → mergeIntersect e e = .ok e) ∧
    (∀ {z e x w : Val}, (z = .nil ∨ ∃ xs, z = nl xs) → (e = .nil ∨ ∃ xs, e = nl xs) → (x = .nil ∨ ∃ xs, x = nl xs) → mergeIntersect z e = .ok z →
      mergeIntersect z x = .ok w → mergeIntersect w e = .ok w) := by
  refine ⟨?_, ?_, ?_⟩
  · rintro x e z (rfl | ⟨xs, rfl⟩) (rfl | ⟨ys, rfl⟩) h
    · cases h; exact ⟨.inl rfl, rfl⟩
    · cases h
      exact ⟨.inr ⟨_, rfl⟩, by rw [mergeIntersect_nl, interElems_sub (fun _ h => h)]⟩
    · cases h; exact ⟨.inr ⟨_, rfl⟩, rfl⟩
    · rw [mergeIntersect_nl] at h
      cases h
      exact ⟨.inr ⟨_, rfl⟩, by rw [mergeIntersect_nl, interElems_sub (fun x h => ((interElems_mem _ _ x).mp h).2)]⟩
  · rintro e (rfl | ⟨ys, rfl⟩)
    · rfl
    · rw [mergeIntersect_nl, interElems_sub (fun _ h => h)]
  · rintro z e x w (rfl | ⟨zs, rfl⟩) (rfl | ⟨es, rfl⟩) (rfl | ⟨xs, rfl⟩) h1 h2
    · cases h2; rfl
    · cases h2; rfl
    · cases h1
    · cases h1
    · cases h2; rfl
    · rw [mergeIntersect_nl] at h2; cases h2; rfl
    · cases h2; exact h1
    · rw [mergeIntersect_nl] at h1 h2
      cases h2
      have he : interElems zs es = zs := by
        have := Except.ok.inj h1
        unfold nl at this
        injection this
      rw [mergeIntersect_nl, interElems_sub (fun x h => ?_)]
      have := ((interElems_mem _ _ x).mp h).1
      rw [← he] at this
      exact ((interElems_mem _ _ x).mp this).2

theorem union_laws : (∀ {x e z : Val}, (x = .nil ∨ ∃ xs, x = nl xs) → (e = .nil ∨ ∃ xs, e = nl xs) → mergeUnion x e = .ok z →
      (z = .nil ∨ ∃ xs, z = nl xs) ∧ mergeUnion z e = .ok z) ∧
    (∀ {e : Val}, (e = .nil ∨ ∃ xs, e = nl xs) → mergeUnion e e = .ok e) ∧
    (∀ {z e x w : Val}, (z = .nil ∨ ∃ xs, z = nl xs) → (e = .nil ∨ ∃ xs, e = nl xs) → (x = .nil ∨ ∃ xs, x = nl xs) → mergeUnion z e = .ok z →
      mergeUnion z x = .ok w → mergeUnion w e = .ok w) := by
  refine ⟨?_, ?_, ?_⟩
  · rintro x e z (rfl | ⟨xs, rfl⟩) (rfl | ⟨ys, rfl⟩) h
    · cases h; exact ⟨.inl rfl, rfl⟩
    · cases h
      exact ⟨.inr ⟨_, rfl⟩, by rw [mergeUnion_nl, unionElems_sub (fun _ h => h)]⟩
    · cases h; exact ⟨.inr ⟨_, rfl⟩, rfl⟩
    · rw [mergeUnion_nl] at h
      cases h
      exact ⟨.inr ⟨_, rfl⟩, by rw [mergeUnion_nl, unionElems_sub (fun x h => (unionElems_mem _ _ x).mpr (.inr h))]⟩
  · rintro e (rfl | ⟨ys, rfl⟩)
    · rfl
    · rw [mergeUnion_nl, unionElems_sub (fun _ h => h)]
  · rintro z e x w (rfl | ⟨zs, rfl⟩) (rfl | ⟨es, rfl⟩) (rfl | ⟨xs, rfl⟩) h1 h2
    · cases h2; rfl
    · cases h2; rfl
    · cases h1
    · cases h1
    · cases h2; rfl
    · rw [mergeUnion_nl] at h2; cases h2; rfl
    · cases h2; exact h1
    · rw [mergeUnion_nl] at h1 h2
      cases h2
      have he : unionElems zs es = zs := by
        have := Except.ok.inj h1
        unfold nl at this
        injection this
      rw [mergeUnion_nl, unionElems_sub (fun x h => (unionElems_mem _ _ x).mpr (.inl ?_))]
      rw [← he]
      exact (unionElems_mem _ _ x).mpr (.inr h)

theorem op_norm {o : Op} {x e z : Val} (hx : NormVal o x) (he : NormVal o e) (h : o.merge x e = .ok z) : NormVal o z ∧ o.merge z e = .ok z := by
  cases o with
  | subsetOf | oneOf => exact intersect_laws.1 hx he h
  | supersetOf | add => exact union_laws.1 hx he h
  | value => obtain ⟨rfl, _⟩ := mergeValue_ok h; exact ⟨trivial, h⟩
  | default =>
    refine ⟨trivial, ?_⟩
    have h0 : mergeDefault x e = .ok z := h
    show mergeDefault z e = .ok z
    rcases mergeDefault_ok h0 with ⟨rfl, rfl⟩ | ⟨_, _, rfl⟩ | ⟨_, _, rfl, _⟩
    · unfold mergeDefault
      by_cases hn : z.isNilIface = true
      · rw [if_pos hn]
      · rw [if_neg hn, if_neg hn, if_pos (sliceEqual_refl z)]
    · exact h0
    · exact h0
  | essential =>
    obtain ⟨a, rfl⟩ := hx
    obtain ⟨b, rfl⟩ := he
    cases h
    exact ⟨⟨_, rfl⟩, by cases a <;> cases b <;> rfl⟩

theorem op_self {o : Op} {e : Val} (he : NormVal o e) : o.merge e e = .ok e := by
  cases o with
  | subsetOf | oneOf => exact intersect_laws.2.1 he
  | supersetOf | add => exact union_laws.2.1 he
  | value => show mergeValue e e = .ok e; unfold mergeValue; rw [if_pos (sliceEqual_refl e)]
  | default =>
    show mergeDefault e e = .ok e
    unfold mergeDefault
    by_cases hn : e.isNilIface = true
    · rw [if_pos hn]
    · rw [if_neg hn, if_neg hn, if_pos (sliceEqual_refl e)]
  | essential => obtain ⟨b, rfl⟩ := he; cases b <;> rfl

theorem op_keeps {o : Op} {z e x w : Val} (hz : NormVal o z) (he : NormVal o e) (hx : NormVal o x) (h1 : o.merge z e = .ok z) (h2 : o.merge z x = .ok w) :
    o.merge w e = .ok w := by
  cases o with
  | subsetOf | oneOf => exact intersect_laws.2.2 hz he hx h1 h2
  | supersetOf | add => exact union_laws.2.2 hz he hx h1 h2
  | value => obtain ⟨rfl, _⟩ := mergeValue_ok h2; exact h1
  | default =>
    have k1 : mergeDefault z e = .ok z := h1
    have k2 : mergeDefault z x = .ok w := h2
    show mergeDefault w e = .ok w
    rcases mergeDefault_ok k2 with ⟨rfl, rfl⟩ | ⟨_, _, rfl⟩ | ⟨_, _, rfl, _⟩
    · cases k1
      unfold mergeDefault
      by_cases hn : w.isNilIface = true
      · rw [if_pos hn, (isNilIface_iff w).mp hn]
      · rw [if_neg hn]; rfl
    · exact k1
    · exact k1
  | essential =>
    obtain ⟨a, rfl⟩ := hz
    obtain ⟨b, rfl⟩ := he
    obtain ⟨c, rfl⟩ := hx
    cases h2
    cases a <;> cases b <;> cases c <;> first | rfl | (exfalso; simp [Op.merge, mergeEssential, Val.asBool] at h1)

/-! ## Entries -/

def NormOpt (op : OpName) (x : Option Val) : Prop := ∀ o v, operators op = some o → x = some v → NormVal o v

theorem mo_norm {op : OpName} {x e z : Option Val} (hx : NormOpt op x) (he : NormOpt op e) (h : mo op x e = .ok z) : NormOpt op z := by
  cases x with
  | none => cases h; exact he
  | some x =>
    cases e with
    | none => cases h; exact hx
    | some e =>
      obtain ⟨o, w, ho, hm, rfl⟩ := mo_some h
      intro o' v ho' hv
      rw [ho] at ho'
      cases ho'
      cases hv
      exact (op_norm (hx o x ho rfl) (he o e ho rfl) hm).1

theorem mo_absorbs {op : OpName} {x e z : Option Val} (hop : ∀ v, e = some v → ∃ o, operators op = some o) (hx : NormOpt op x) (he : NormOpt op e)
    (h : mo op x e = .ok z) : mo op z e = .ok z := by
  cases e with
  | none => exact mo_none_right op z
  | some e =>
    cases x with
    | none =>
      cases h
      obtain ⟨o, ho⟩ := hop e rfl
      exact mo_of ho (op_self (he o e ho rfl))
    | some x =>
      obtain ⟨o, w, ho, hm, rfl⟩ := mo_some h
      exact mo_of ho (op_norm (hx o x ho rfl) (he o e ho rfl) hm).2

theorem mo_keeps {op : OpName} {z e x w : Option Val} (hz : NormOpt op z) (he : NormOpt op e) (hx : NormOpt op x) (h1 : mo op z e = .ok z) (h2 : mo op z x = .ok w) :
    mo op w e = .ok w := by
  cases e with
  | none => exact mo_none_right op w
  | some e =>
    cases z with
    | none => cases h1
    | some z =>
      obtain ⟨o, v, ho, hm, hv⟩ := mo_some h1
      cases hv
      cases x with
      | none => cases h2; exact h1
      | some x =>
        obtain ⟨o', v', ho', hm', rfl⟩ := mo_some h2
        rw [ho] at ho'
        cases ho'
        exact mo_of ho (op_keeps (hz o _ ho rfl) (he o e ho rfl) (hx o x ho rfl) hm hm')

/-! ## Policies -/

/-- Known policies with such operands, that verify. -/
structure NormPolicy (p : Policy) : Prop extends KnownPolicy p where
  valid : Policy.verify p = .ok ()
  norm : ∀ k e op, AMap.get p k = some e → NormOpt op (e.get op)

/-- Everything in `q` is in `p` already. -/
def Absorbs (p q : Policy) : Prop :=
  ∀ k e, AMap.get q k = some e → ∃ a, AMap.get p k = some a ∧ ∀ op, mo op (a.get op) (e.get op) = .ok (a.get op)

theorem known_operator {e : Entry} (hk : KnownOps e) {op : OpName} {v : Val} (hv : e.get op = some v) : ∃ o, operators op = some o := by
  have := hk op ⟨v, hv⟩
  unfold Known at this
  rcases this with rfl | rfl | rfl | rfl | rfl | rfl | rfl <;> exact ⟨_, rfl⟩

theorem normPolicy_of_proper {p : Policy} (h : ProperPolicy p) : NormPolicy p := by
  refine ⟨h.toKnownPolicy, h.valid, ?_⟩
  intro k e op he o v ho hv
  have hl : op ∈ ["add", "one_of", "subset_of", "superset_of"] → v = .nil ∨ ∃ xs, v = nl xs := fun hop =>
    (h.lists k e op v he hop hv).imp id (fun ⟨x, xs, hx⟩ => ⟨x :: xs, hx⟩)
  unfold operators at ho
  repeat' split at ho
  all_goals first | cases ho | skip
  all_goals rename_i hop
  all_goals subst hop
  all_goals first | exact hl (by decide) | exact h.booleans k e v he hv | trivial

theorem combine_cases {p q m : Policy} (h : combinePolicy p q = .ok m) : (q = [] ∧ m = p) ∨ (p = [] ∧ m = q) ∨ (p ≠ [] ∧ q ≠ []) := by
  by_cases hq : q = []
  · subst hq; cases h; exact .inl ⟨rfl, rfl⟩
  · by_cases hp : p = []
    · subst hp
      unfold combinePolicy at h
      rw [if_neg (by simpa using hq)] at h
      cases h
      exact .inr (.inl ⟨rfl, rfl⟩)
    · exact .inr (.inr ⟨hp, hq⟩)

theorem combine_norm {p q m : Policy} (hp : NormPolicy p) (hq : NormPolicy q) (h : combinePolicy p q = .ok m) : NormPolicy m := by
  rcases combine_cases h with ⟨_, rfl⟩ | ⟨_, rfl⟩ | ⟨hpe, hqe⟩
  · exact hp
  · exact hq
  · obtain ⟨hg, hv, hm, _, _⟩ := combinePolicy_nonempty hpe hqe h
    refine ⟨combine_known hp.toKnownPolicy hq.toKnownPolicy h, hv, ?_⟩
    intro k e op he
    rw [hg] at he
    cases hx : AMap.get p k with
    | none => rw [hx] at he; exact hq.norm k e op he
    | some x =>
      cases hy : AMap.get q k with
      | none => rw [hx, hy] at he; cases he; exact hp.norm k _ op hx
      | some y =>
        obtain ⟨z, hz⟩ := hm k x y (get_mem hx) hy
        rw [hx, hy] at he
        simp only [mergedEntry, hz] at he
        cases he
        exact mo_norm (hp.norm k x op hx) (hq.norm k y op hy) (entry_get (hp.entries k x hx).2 (hp.entries k x hx).1 hz op)

theorem self_absorbs {q : Policy} (hq : NormPolicy q) : Absorbs q q := by
  intro k e he
  refine ⟨e, he, fun op => ?_⟩
  exact mo_absorbs (x := none) (fun v hv => known_operator (hq.entries k e he).2 hv) (fun _ _ _ h => by cases h) (hq.norm k e op he) rfl

theorem combine_absorbs {p q m : Policy} (hp : NormPolicy p) (hq : NormPolicy q) (h : combinePolicy p q = .ok m) : Absorbs m q := by
  rcases combine_cases h with ⟨rfl, _⟩ | ⟨_, rfl⟩ | ⟨hpe, hqe⟩
  · intro k e he; cases he
  · exact self_absorbs hq
  · obtain ⟨hg, _, hm, _, _⟩ := combinePolicy_nonempty hpe hqe h
    intro k e he
    rw [hg, he]
    cases hx : AMap.get p k with
    | none =>
      obtain ⟨a, ha, hs⟩ := self_absorbs hq k e he
      rw [he] at ha
      cases ha
      exact ⟨e, rfl, hs⟩
    | some x =>
      obtain ⟨z, hz⟩ := hm k x e (get_mem hx) he
      simp only [mergedEntry, hz]
      refine ⟨z, rfl, fun op => ?_⟩
      exact mo_absorbs (fun v hv => known_operator (hq.entries k e he).2 hv) (hp.norm k x op hx) (hq.norm k e op he)
        (entry_get (hp.entries k x hx).2 (hp.entries k x hx).1 hz op)

theorem combine_keeps {p q x m : Policy} (hp : NormPolicy p) (hq : NormPolicy q) (hx : NormPolicy x) (ha : Absorbs p q) (h : combinePolicy p x = .ok m) : Absorbs m q := by
  rcases combine_cases h with ⟨_, rfl⟩ | ⟨rfl, _⟩ | ⟨hpe, hxe⟩
  · exact ha
  · intro k e he
    obtain ⟨a, h, _⟩ := ha k e he
    cases h
  · obtain ⟨hg, _, hm, _, _⟩ := combinePolicy_nonempty hpe hxe h
    intro k e he
    obtain ⟨a, hak, hab⟩ := ha k e he
    rw [hg, hak]
    cases hy : AMap.get x k with
    | none => exact ⟨a, rfl, hab⟩
    | some y =>
      obtain ⟨z, hz⟩ := hm k a y (get_mem hak) hy
      simp only [mergedEntry, hz]
      refine ⟨z, rfl, fun op => ?_⟩
      exact mo_keeps (hp.norm k a op hak) (hq.norm k e op he) (hx.norm k y op hy) (hab op) (entry_get (hp.entries k a hak).2 (hp.entries k a hak).1 hz op)

theorem eqPolicy_refl (p : Policy) : EqPolicy p p :=
  fun k => ⟨rfl, fun a b ha hb => by rw [ha] at hb; cases hb; exact fun _ => rfl⟩

theorem combine_absorbed {p q : Policy} (hp : NormPolicy p) (hq : NormPolicy q) (ha : Absorbs p q) : ∃ m, combinePolicy p q = .ok m ∧ EqPolicy p m := by
  by_cases hqe : q = []
  · subst hqe; exact ⟨p, rfl, eqPolicy_refl p⟩
  · have hpe : p ≠ [] := by
      rintro rfl
      cases q with
      | nil => exact hqe rfl
      | cons kv q =>
        obtain ⟨a, h, _⟩ := ha kv.1 kv.2 (by simp [AMap.get])
        cases h
    have hm : ∀ k x y, AMap.get p k = some x → AMap.get q k = some y → ∃ z, mergeEntries x y = .ok z ∧ EqEntry x z := by
      intro k x y hx hy
      obtain ⟨a, hak, hab⟩ := ha k y hy
      rw [hx] at hak
      cases hak
      obtain ⟨z, hz⟩ := (entry_ok_iff (b := y) (hp.entries k x hx).2 (hp.entries k x hx).1).mpr (fun op => ⟨_, hab op⟩)
      exact ⟨z, hz, fun op => Option.some.inj (by
        have := (entry_get (hp.entries k x hx).2 (hp.entries k x hx).1 hz op).symm.trans (hab op)
        rw [Except.ok.inj this])⟩
    obtain ⟨m, hg, hw, hv⟩ := combinePolicy_of hpe hqe (fun k x y hx hy => (hm k x y (mem_get hp.wf hx) hy).imp fun _ h => h.1)
    have he : EqPolicy p m := by
      intro k
      rw [hg]
      cases hx : AMap.get p k with
      | none =>
        cases hy : AMap.get q k with
        | none => exact ⟨rfl, fun a b h => by cases h⟩
        | some y => obtain ⟨a, h, _⟩ := ha k y hy; rw [hx] at h; cases h
      | some x =>
        cases hy : AMap.get q k with
        | none => exact ⟨rfl, fun a b h h' => by cases h; cases h'; exact fun _ => rfl⟩
        | some y =>
          obtain ⟨z, hz, hez⟩ := hm k x y hx hy
          simp only [mergedEntry, hz]
          exact ⟨rfl, fun a b h h' => by cases h; cases h'; exact hez⟩
    exact ⟨m, hv (same_policy_verify (hw hp.wf hq.wf) he.same (fun k e he => (hp.entries k e he).2) hp.valid), he⟩

theorem combineRest_append (ps qs : List Policy) (out : Policy) : combineRest out (ps ++ qs) = (combineRest out ps).bind (fun m => combineRest m qs) := by
  induction ps generalizing out with
  | nil => rfl
  | cons p ps ih =>
    rw [List.cons_append, combineRest, combineRest]
    cases h : combinePolicy out p with
    | error f => rfl
    | ok m => exact ih m

theorem combineRest_norm {ps : List Policy} (hps : ∀ p ∈ ps, NormPolicy p) {q : Policy} (hq : NormPolicy q) : ∀ {out m : Policy}, NormPolicy out → combineRest out ps = .ok m →
    NormPolicy m ∧ (Absorbs out q ∨ q ∈ ps → Absorbs m q) := by
  induction ps with
  | nil =>
    intro out m ho h
    cases h
    exact ⟨ho, fun h => h.elim id (fun h => by cases h)⟩
  | cons p ps ih =>
    intro out m ho h
    rw [combineRest] at h
    obtain ⟨z, hz, h⟩ := bind_ok h
    have hp := hps p List.mem_cons_self
    obtain ⟨h1, h2⟩ := ih (fun p hp => hps p (List.mem_cons_of_mem _ hp)) (combine_norm ho hp hz) h
    refine ⟨h1, fun h => h2 ?_⟩
    rcases h with h | h
    · exact .inl (combine_keeps ho hq hp h hz)
    · rcases List.mem_cons.mp h with rfl | h
      · exact .inl (combine_absorbs ho hp hz)
      · exact .inr h

theorem each_refl (ps : List Policy) : Each EqPolicy ps ps := by
  induction ps with
  | nil => exact .nil
  | cons p ps ih => exact .cons (eqPolicy_refl p) ih

theorem combineAll_cons_append (p : Policy) (ps qs : List Policy) : combineAll (p :: ps ++ qs) = (combineAll (p :: ps)).bind (fun m => combineRest m qs) := by
  rw [List.cons_append, combineAll, combineAll]
  cases Policy.verify p with
  | error f => rfl
  | ok _ => exact combineRest_append ps qs p

/-- Stating a policy again changes nothing. -/
theorem combineAll_again {ps qs : List Policy} {q : Policy} (hps : ∀ p ∈ ps, NormPolicy p) (hqs : ∀ p ∈ qs, NormPolicy p) (hq : q ∈ ps) :
    (∀ m, combineAll (ps ++ qs) = .ok m → ∃ m', combineAll (ps ++ q :: qs) = .ok m' ∧ EqPolicy m m') ∧
    (∀ m', combineAll (ps ++ q :: qs) = .ok m' → ∃ m, combineAll (ps ++ qs) = .ok m ∧ EqPolicy m m') := by
  cases ps with
  | nil => cases hq
  | cons p ps =>
    rw [combineAll_cons_append, combineAll_cons_append]
    cases hc : combineAll (p :: ps) with
    | error f => exact ⟨fun m h => (by cases h), fun m h => (by cases h)⟩
    | ok out =>
      have hp := hps p List.mem_cons_self
      have hqn := hps q hq
      have hc' : combineRest p ps = .ok out := by
        rw [combineAll, hp.valid] at hc
        exact hc
      obtain ⟨hn, ha⟩ := combineRest_norm (fun p hp => hps p (List.mem_cons_of_mem _ hp)) hqn hp hc'
      have ha := ha (by
        rcases List.mem_cons.mp hq with rfl | h
        · exact .inl (self_absorbs hp)
        · exact .inr h)
      obtain ⟨out', ho', he⟩ := combine_absorbed hn hqn ha
      have hn' := combine_norm hn hqn ho'
      have e1 : combineRest out (q :: qs) = combineRest out' qs := by rw [combineRest, ho']; rfl
      show (∀ m, combineRest out qs = .ok m → ∃ m', combineRest out (q :: qs) = .ok m' ∧ EqPolicy m m') ∧
        (∀ m', combineRest out (q :: qs) = .ok m' → ∃ m, combineRest out qs = .ok m ∧ EqPolicy m m')
      rw [e1]
      have hk : ∀ p ∈ qs, KnownPolicy p := fun p hp => (hqs p hp).toKnownPolicy
      refine ⟨fun m h => eq_combineRest (each_refl qs) he hn.toKnownPolicy hn'.toKnownPolicy hk hk h, fun m' h => ?_⟩
      obtain ⟨m, h1, h2⟩ := eq_combineRest (each_refl qs) he.symm hn'.toKnownPolicy hn.toKnownPolicy hk hk h
      exact ⟨m, h1, h2.symm⟩

end Oidfed
