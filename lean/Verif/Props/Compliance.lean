import Verif.Props.MetadataApply
import Verif.Lemmas.NoPanic
import Verif.Spec.Compliance
import Verif.Model.Verifiers
/-!
# Properties C129 and C130: compliant metadata is accepted, and policies that can be complied with
-/

namespace Oidfed
open Spec

/-! ## The single operators on values that comply -/

theorem typed_get {sh : Shape} {p : Entry} (h : TypedEntry sh p) {op : String} {v : Val} (hg : p.get op = some v) :
    TypedOp sh op v := h (op, v) (get_mem hg)

/-- The invariant while the entry is applied to a list that complies. -/
def KeepsList (p : Entry) (e : ETy) (xs : List Val) (c : Cur) : Prop :=
  ∃ n ys, c = ⟨.slice e n ys, true⟩ ∧ SameSet xs ys ∧ (p.get "value" = none → ys = xs)

theorem union_kept {e : ETy} (he : e ≠ .obj ∧ e ≠ .ptr) {n m : Bool} {ys zs : List Val}
    (hz : ∀ z ∈ zs, fitsElem e z = true) (hs : ∀ z ∈ zs, z ∈ ys) :
    ∃ n', reflectUnion (.slice e n ys) (.slice .any m zs) = .ok (.slice e n' ys) := by
  obtain ⟨n', ws, h⟩ := union_list he (v := .slice e n ys) (s := ⟨e, n, ys⟩) rfl rfl (n := m) hz
  obtain ⟨sa, n2, h1, _, h3, _⟩ := reflectUnion_ok h
  refine ⟨n2, ?_⟩
  rw [h, h3]
  have : unionElems (Val.slice e n ys).elems (Val.slice ETy.any m zs).elems = ys := unionElems_sub hs
  rw [this]
  have h1 : some (⟨e, n, ys⟩ : Slc) = some sa := h1
  rw [← Option.some.inj h1]

theorem inter_kept {e : ETy} (he : e ≠ .obj ∧ e ≠ .ptr) {n m : Bool} {ys zs : List Val}
    (hz : ∀ z ∈ zs, fitsElem e z = true) (hs : ∀ y ∈ ys, y ∈ zs) :
    ∃ n', intersectSlc (some ⟨e, n, ys⟩) (some ⟨.any, m, zs⟩) = .ok ⟨e, n', ys⟩ := by
  obtain ⟨n', ws, h⟩ := inter_list he (s := ⟨e, n, ys⟩) rfl (n := m) hz
  obtain ⟨sb, hb, hr⟩ := intersectSlc_ok h
  refine ⟨n', ?_⟩
  rw [h]
  have hb := Option.some.inj hb
  subst hb
  have : List.filter (fun x => zs.contains x) ys = ys := interElems_sub hs
  simp only [Slc.mk.injEq] at hr
  rw [hr.2.2]
  exact congrArg _ (by rw [this])

/-- A list that complies is kept by all operators. -/
theorem list_kept {p : Entry} {e : ETy} (he : e ≠ .obj ∧ e ≠ .ptr) (ht : TypedEntry (.list e) p) {n : Bool} {xs : List Val}
    (hc : Complies p (.slice e n xs)) (ho : ¬ Has p "one_of") : ∃ c, p.applyCur ⟨.slice e n xs, true⟩ = .ok c ∧ KeepsList p e xs c := by
  have hpres : Present true (.slice e n xs) := ⟨by simp, .inl rfl⟩
  have s1 : ∃ c1, optStep (p.get opValue) (applyValue ⟨.slice e n xs, true⟩) ⟨.slice e n xs, true⟩ = .ok c1 ∧ KeepsList p e xs c1 := by
    cases hg : p.get opValue with
    | none => exact ⟨_, rfl, n, xs, rfl, fun _ => Iff.rfl, fun _ => rfl⟩
    | some pv =>
      obtain ⟨m, ys, rfl, hy⟩ := (typed_get ht hg).value (.inl rfl)
      refine ⟨⟨.slice e false ys, true⟩, ?_, false, ys, rfl, hc.value _ hg, fun h => ?_⟩
      · show applyValue _ _ = _
        unfold applyValue
        rw [if_neg (by simp [Val.isNilIface])]
        show (Except.map Slc.toVal (castSlc ⟨.any, m, ys⟩ (some ⟨e, n, xs⟩)) >>= fun r => Except.ok (⟨r, true⟩ : Cur)) = _
        rw [cast_list he hy rfl]
        rfl
      · have : p.get "value" = some _ := hg
        rw [h] at this; cases this
  obtain ⟨c1, h1, n1, y1, rfl, k1, l1⟩ := s1
  have s2 : ∃ c2, optStep (p.get opAdd) (applyAdd ⟨.slice e n1 y1, true⟩) ⟨.slice e n1 y1, true⟩ = .ok c2 ∧ KeepsList p e xs c2 := by
    cases hg : p.get opAdd with
    | none => exact ⟨_, rfl, n1, y1, rfl, k1, l1⟩
    | some pv =>
      obtain ⟨m, zs, rfl⟩ := (typed_get ht hg).list (.inl rfl)
      have hz : ∀ z ∈ zs, fitsElem e z = true := (typed_get ht hg).elems (.inl rfl)
      obtain ⟨n', hu⟩ := union_kept he (n := n1) (m := m) hz (fun z hz' => (k1 z).mp (hc.add _ hg z hz'))
      refine ⟨⟨.slice e n' y1, true⟩, ?_, n', y1, rfl, k1, l1⟩
      show applyAdd _ _ = _
      unfold applyAdd
      rw [if_neg (by simp [Val.isNilIface]), if_neg (by simp [Val.isNilIface]), hu]
      rfl
  obtain ⟨c2, h2, n2, y2, rfl, k2, l2⟩ := s2
  have h3 : optStep (p.get opDefault) (applyDefault ⟨.slice e n2 y2, true⟩) ⟨.slice e n2 y2, true⟩ = .ok ⟨.slice e n2 y2, true⟩ := by
    cases p.get opDefault <;> rfl
  have h4 : optStep (p.get opOneOf) (fun v => applyOneOf ⟨.slice e n2 y2, true⟩ v p.essential) ⟨.slice e n2 y2, true⟩ =
      .ok ⟨.slice e n2 y2, true⟩ := by
    cases hg : p.get opOneOf with
    | none => rfl
    | some s => exact absurd ⟨s, hg⟩ ho
  have s5 : ∃ c5, optStep (p.get opSubsetOf) (fun v => applySubsetOf ⟨.slice e n2 y2, true⟩ v p.essential) ⟨.slice e n2 y2, true⟩ =
      .ok c5 ∧ KeepsList p e xs c5 := by
    cases hg : p.get opSubsetOf with
    | none => exact ⟨_, rfl, n2, y2, rfl, k2, l2⟩
    | some pv =>
      obtain ⟨m, zs, rfl⟩ := (typed_get ht hg).list (.inr (.inl rfl))
      have hz : ∀ z ∈ zs, fitsElem e z = true := (typed_get ht hg).elems (.inr rfl)
      obtain ⟨n', hu⟩ := inter_kept he (n := n2) (m := m) hz
        (fun y hy => hc.subset (.inl hpres) _ hg (by simp) y ((k2 y).mpr hy))
      refine ⟨⟨.slice e n' y2, true⟩, ?_, n', y2, rfl, k2, l2⟩
      show (intersectSlc (some ⟨e, n2, y2⟩) (some ⟨.any, m, zs⟩) >>= fun r => Except.ok (⟨r.toVal, true⟩ : Cur)) = _
      rw [hu]
      rfl
  obtain ⟨c5, h5, n5, y5, rfl, k5, l5⟩ := s5
  have h6 : optStep (p.get opSupersetOf) (fun v => applySupersetOf ⟨.slice e n5 y5, true⟩ v p.essential) ⟨.slice e n5 y5, true⟩ =
      .ok ⟨.slice e n5 y5, true⟩ := by
    cases hg : p.get opSupersetOf with
    | none => rfl
    | some pv =>
      obtain ⟨m, zs, rfl⟩ := (typed_get ht hg).list (.inr (.inr (.inl rfl)))
      have : reflectIsSubsetOf (.slice .any m zs) (.slice e n5 y5) = .ok true :=
        reflectIsSubsetOf_true.mpr ⟨by simp, fun z hz => (k5 z).mp (hc.superset (.inl hpres) _ hg (by simp) z hz)⟩
      show (reflectIsSubsetOf (.slice .any m zs) (.slice e n5 y5) >>= fun ok => if !ok then Except.error Fail.error else Except.ok _) = _
      rw [this]
      rfl
  have h7 : optStep (p.get opEssential) (applyEssential ⟨.slice e n5 y5, true⟩) ⟨.slice e n5 y5, true⟩ = .ok ⟨.slice e n5 y5, true⟩ := by
    cases p.get opEssential with
    | none => rfl
    | some v => simp [optStep, applyEssential, Val.isNilIface, Val.isSlice]
  exact ⟨_, applyCur_of_steps h1 h2 h3 h4 h5 h6 h7, n5, y5, rfl, k5, l5⟩

/-- A single value that complies is kept by all operators. -/
theorem scalar_kept {p : Entry} {ty : Ty} (ht : TypedEntry (.scalar ty) p) {v : Val} (hv : v.ty? = some ty) (hs : v.isSlice = false)
    (hc : Complies p v) : p.applyCur ⟨v, true⟩ = .ok ⟨v, true⟩ := by
  have hn : v ≠ .nil := by rintro rfl; cases hv
  have hpres : Present true v := ⟨hn, .inl rfl⟩
  have hel : v.elems = [v] := by cases v <;> first | rfl | exact absurd rfl hn | (simp [Val.isSlice] at hs)
  have h1 : optStep (p.get opValue) (applyValue ⟨v, true⟩) ⟨v, true⟩ = .ok ⟨v, true⟩ := by
    cases hg : p.get opValue with
    | none => rfl
    | some pv =>
      have hp := (typed_get ht hg).value (.inl rfl)
      have hpn := (typed_get ht hg).notNull
      have hpel : pv.elems = [pv] := by
        have := hp.2
        cases pv <;> first | rfl | exact absurd rfl hpn | (simp [Val.isSlice] at this)
      have hval := (hc.value _ hg pv).mpr (by rw [hpel]; simp)
      rw [hel, List.mem_singleton] at hval
      subst hval
      show applyValue _ _ = _
      unfold applyValue
      rw [if_neg (by rw [isNilIface_iff]; exact hn)]
      have : reflectSliceCast pv (slicify pv) = .ok pv := by
        cases pv <;> first | rfl | (simp [Val.isSlice] at hs)
      rw [this]
      rfl
  have h2 : optStep (p.get opAdd) (applyAdd ⟨v, true⟩) ⟨v, true⟩ = .ok ⟨v, true⟩ := by
    cases hg : p.get opAdd with
    | none => rfl
    | some pv => exact ((typed_get ht hg).elems (.inl rfl)).elim
  have h3 : optStep (p.get opDefault) (applyDefault ⟨v, true⟩) ⟨v, true⟩ = .ok ⟨v, true⟩ := by
    cases p.get opDefault <;> rfl
  have h4 : optStep (p.get opOneOf) (fun w => applyOneOf ⟨v, true⟩ w p.essential) ⟨v, true⟩ = .ok ⟨v, true⟩ := by
    cases hg : p.get opOneOf with
    | none => rfl
    | some pv =>
      have hm := hc.oneOf (.inl hpres) _ hg (typed_get ht hg).notNull
      show applyOneOf _ _ _ = _
      unfold applyOneOf
      rw [if_neg (by simp), if_neg (by rw [isNilIface_iff]; exact (typed_get ht hg).notNull), if_neg (by simp), if_neg]
      rw [(sliceContains_iff v pv).mpr hm]
      simp
  have h5 : optStep (p.get opSubsetOf) (fun w => applySubsetOf ⟨v, true⟩ w p.essential) ⟨v, true⟩ = .ok ⟨v, true⟩ := by
    cases hg : p.get opSubsetOf with
    | none => rfl
    | some pv => exact ((typed_get ht hg).elems (.inr rfl)).elim
  have h6 : optStep (p.get opSupersetOf) (fun w => applySupersetOf ⟨v, true⟩ w p.essential) ⟨v, true⟩ = .ok ⟨v, true⟩ := by
    cases hg : p.get opSupersetOf with
    | none => rfl
    | some pv =>
      obtain ⟨m, zs, rfl⟩ := (typed_get ht hg).list (.inr (.inr (.inl rfl)))
      have : reflectIsSubsetOf (.slice .any m zs) v = .ok true :=
        reflectIsSubsetOf_true.mpr ⟨by simp, fun z hz => hc.superset (.inl hpres) _ hg (by simp) z hz⟩
      show (reflectIsSubsetOf (.slice .any m zs) v >>= fun ok => if !ok then Except.error Fail.error else Except.ok _) = _
      rw [this]
      rfl
  have h7 : optStep (p.get opEssential) (applyEssential ⟨v, true⟩) ⟨v, true⟩ = .ok ⟨v, true⟩ := by
    cases hg : p.get opEssential with
    | none => rfl
    | some w =>
      show applyEssential _ _ = _
      unfold applyEssential
      split
      · rfl
      · rw [if_neg]
        intro hh
        rw [Bool.and_eq_true, Bool.or_eq_true, Bool.and_eq_true] at hh
        have hw : w = .bool true := by
          have := hh.1
          cases w <;> simp [Val.asBool] at this
          rw [this]
        subst hw
        refine hc.essential hg ((isZero_iff v).mp ?_)
        rw [Bool.or_eq_true]
        exact hh.2.imp id (·.2)
  exact applyCur_of_steps h1 h2 h3 h4 h5 h6 h7

/-! ## C129 -/

/-- **C129** for one attribute: a stated value that complies with a policy entry is accepted, and stays what it is (up to the order of a list for which
`value` is given). Missing: `one_of` for a list attribute; the `scope` attribute (refuted below). -/
theorem C129_accepted_partial (sh : Shape) (p : Entry) (v : Val) (ht : TypedEntry sh p) (hs : HasShape sh v)
    (ho : v.isSlice = true → ¬ Has p "one_of") (hc : Complies p v) :
    ∃ v', p.applyTo v true = .ok v' ∧ SameValue v v' ∧ (¬ Has p "value" → v'.elems = v.elems) := by
  cases sh with
  | list e =>
    obtain ⟨h1, h2, n, xs, rfl⟩ := hs
    obtain ⟨c, hk, n', ys, rfl, k1, k2⟩ := list_kept ⟨h1, h2⟩ ht hc (ho rfl)
    refine ⟨.slice e n' ys, ?_, .inr ⟨e, n, n', xs, ys, rfl, rfl, k1⟩, fun hv => k2 ?_⟩
    · unfold Entry.applyTo; rw [hk]; rfl
    · cases hg : p.get "value" with
      | none => rfl
      | some w => exact absurd ⟨w, hg⟩ hv
  | scalar ty =>
    refine ⟨v, ?_, .inl rfl, fun _ => rfl⟩
    unfold Entry.applyTo
    rw [scalar_kept ht hs.1 hs.2 hc]
    rfl
  | scope => exact hs.elim
  | «opaque» => exact hs.elim
  | unknown => exact hs.elim

/-- A list that complies with four operators, and a single value with three. -/
theorem exTyped : TypedEntry (.list .str) [("add", jl ["a"]), ("subset_of", jl ["a", "b", "c"]), ("superset_of", jl ["b"]), ("default", jl ["z"])] := by
  intro kv hkv
  simp only [List.mem_cons, List.not_mem_nil, or_false] at hkv
  rcases hkv with rfl | rfl | rfl | rfl
  · exact ⟨by simp [jl], fun _ => ⟨_, _, rfl⟩, fun _ => by unfold ElemsOk; decide, fun h => by simp at h⟩
  · exact ⟨by simp [jl], fun _ => ⟨_, _, rfl⟩, fun _ => by unfold ElemsOk; decide, fun h => by simp at h⟩
  · exact ⟨by simp [jl], fun _ => ⟨_, _, rfl⟩, fun h => by simp at h, fun h => by simp at h⟩
  · exact ⟨by simp [jl], fun h => by simp at h, fun h => by simp at h, fun _ => ⟨_, _, rfl, by decide⟩⟩

example : Complies [("add", jl ["a"]), ("subset_of", jl ["a", "b", "c"]), ("superset_of", jl ["b"]), ("default", jl ["z"])] (sl ["b", "a"]) := by
  refine ⟨⟨?_, ?_, ?_, ?_⟩, ?_, ?_⟩
  · intro _ s h _; cases h; decide
  · intro _ s h _; cases h; decide
  · intro _ s h; cases h
  · intro s h; cases h
  · intro s h; cases h; decide
  · intro h; cases h

example : Complies [("one_of", jl ["a", "b"]), ("essential", .bool true), ("value", .str "b")] (.str "b") := by
  refine ⟨⟨?_, ?_, ?_, ?_⟩, ?_, ?_⟩
  · intro _ s h; cases h
  · intro _ s h; cases h
  · intro _ s h _; cases h; decide
  · intro s h; cases h; intro x; exact Iff.rfl
  · intro s h; cases h
  · intro _ h; exact absurd ((isZero_iff _).mpr h) (by decide)

/-- An entry that is silent about absent attributes leaves them alone. -/
theorem silent_kept {p : Entry} (hs : Silent p) (v : Val) : p.applyTo v false = .ok v := by
  obtain ⟨h1, h2, h3, h4⟩ := hs
  have hno : ∀ {n}, ¬ Has p n → p.get n = none := by
    intro n h
    cases hg : p.get n with
    | none => rfl
    | some w => exact absurd ⟨w, hg⟩ h
  have he : p.essential = false := by
    cases h : p.essential with
    | false => rfl
    | true => exact absurd ((essential_iff p).mp h) h4
  unfold Entry.applyTo
  rw [applyCur_of_steps (c := ⟨v, false⟩) (c1 := ⟨v, false⟩) (c2 := ⟨v, false⟩) (c3 := ⟨v, false⟩) (c4 := ⟨v, false⟩) (c5 := ⟨v, false⟩)
    (c6 := ⟨v, false⟩) (c' := ⟨v, false⟩)]
  · rfl
  · rw [show p.get opValue = none from hno h1]; rfl
  · rw [show p.get opAdd = none from hno h2]; rfl
  · rw [show p.get opDefault = none from hno h3]; rfl
  · cases p.get opOneOf with
    | none => rfl
    | some w => simp [optStep, applyOneOf, he]
  · cases p.get opSubsetOf with
    | none => rfl
    | some w => simp [optStep, applySubsetOf, he]
  · cases p.get opSupersetOf with
    | none => rfl
    | some w => simp [optStep, applySupersetOf, he]
  · cases hg : p.get opEssential with
    | none => rfl
    | some w =>
      show applyEssential _ _ = _
      unfold applyEssential
      split
      · rfl
      · rw [if_neg]
        intro hh
        rw [Bool.and_eq_true] at hh
        have hw : w = .bool true := by
          have := hh.1
          cases w <;> simp [Val.asBool] at this
          rw [this]
        subst hw
        exact h4 hg

theorem sameValue_ty {v v' : Val} (h : SameValue v v') : v'.ty? = v.ty? := by
  rcases h with rfl | ⟨e, n, n', xs, ys, rfl, rfl, _⟩ <;> rfl

/-- A field that complies is kept. -/
theorem field_kept {p : Policy} {ws : List String} {f : Field} (ht : ∀ e, AMap.get p f.tag = some e → TypedEntry (shapeOf f) e)
    (hf : FieldOk f) (hp : PlainFor p f) (hc : FieldComplies p ws f) : ∃ f', applyField p ws f = .ok f' ∧ SameField f f' := by
  unfold applyField
  cases hg : AMap.get p f.tag with
  | none => exact ⟨f, rfl, rfl, rfl, rfl, .inl rfl⟩
  | some e =>
    obtain ⟨p1, p2, p3, p4⟩ := hp e hg
    have hv : ∃ v, e.applyTo f.val (ws.contains f.name) = .ok v ∧ SameValue f.val v := by
      rcases hc e hg with ⟨hw, hc⟩ | ⟨hw, hc⟩
      · rw [show ws.contains f.name = true by simpa using hw]
        have hsh : HasShape (shapeOf f) f.val := by
          have hty := hf.1
          unfold shapeOf
          split
          · rename_i h; exact absurd h p2
          · rename_i h; exact absurd h p3
          · rename_i h1 h2 h
            rw [h] at hty
            exact ⟨fun e => p2 (by rw [h, e]), fun e => p3 (by rw [h, e]), val_slice_of_ty hty⟩
          · rename_i h
            rw [if_neg p1]
            rw [h] at hty
            obtain ⟨s, hs⟩ := val_str_of_ty hty
            rw [hs]
            exact ⟨rfl, rfl⟩
          · rename_i h1 h2 h3 h4
            refine ⟨hty, ?_⟩
            cases hval : f.val <;> first | rfl | (rw [hval] at hty; exact absurd (Option.some.inj hty).symm (by first | exact h3 _ | exact fun h => h3 _ h))
        obtain ⟨v, h1, h2, _⟩ := C129_accepted_partial (shapeOf f) e f.val (ht e hg) hsh (fun hsl => by
          have hty := hf.1
          cases hval : f.val <;> rw [hval] at hsl hty <;> first | (simp [Val.isSlice] at hsl; done) | skip
          exact p4 _ (Option.some.inj hty).symm) hc
        exact ⟨v, h1, h2⟩
      · rw [show ws.contains f.name = false by simpa using hw]
        exact ⟨f.val, silent_kept hc f.val, .inl rfl⟩
    obtain ⟨v, hv, hs⟩ := hv
    have hj : scopeJoin f.name v = v := by
      unfold scopeJoin
      split
      · rw [if_neg p1]
      · rfl
    have hset : setField f v = .ok { f with val := v } := by
      unfold setField
      rw [sameValue_ty hs, hf.1]
      simp
    refine ⟨{ f with val := v }, ?_, rfl, rfl, rfl, hs⟩
    show (e.applyTo f.val (ws.contains f.name) >>= fun v => setField f (scopeJoin f.name v)) = _
    rw [hv]
    show setField f (scopeJoin f.name v) = _
    rw [hj, hset]

theorem fields_kept {p : Policy} {ws : List String} : ∀ {fs : List Field}, (∀ f ∈ fs, ∃ f', applyField p ws f = .ok f' ∧ SameField f f') →
    ∃ fs', applyFields p ws fs = .ok fs' ∧ Each SameField fs fs'
  | [], _ => ⟨[], rfl, .nil⟩
  | f :: fs, h => by
    obtain ⟨f', h1, h2⟩ := h f (by simp)
    obtain ⟨fs', h3, h4⟩ := fields_kept (fs := fs) (fun g hg => h g (by simp [hg]))
    refine ⟨f' :: fs', ?_, .cons h2 h4⟩
    unfold applyFields
    rw [h1, h3]
    rfl

theorem extraMap_same : ∀ {fs fs' : List Field}, Each SameField fs fs' → (∀ f ∈ fs, FieldOk f) → extraMap fs' = extraMap fs := by
  intro fs fs' h
  induction h with
  | nil => intro _; rfl
  | @cons f f' fs fs' h1 _ ih =>
    intro hf
    obtain ⟨_, h2, _, h4⟩ := h1
    unfold extraMap
    by_cases hc : f.tag = "-"
    · rw [List.find?_cons_of_pos (by simp [h2, hc]), List.find?_cons_of_pos (by simp [hc])]
      rcases h4 with h4 | ⟨e, n, n', xs, ys, h4, _⟩
      · simp [h4]
      · obtain ⟨o1, _, o2⟩ := hf f (List.mem_cons_self ..)
        rw [h4, o2 hc] at o1
        cases o1
    · rw [List.find?_cons_of_neg (by simp [h2, hc]), List.find?_cons_of_neg (by simp [hc])]
      exact ih (fun g hg => hf g (List.mem_cons_of_mem _ hg))

/-- **C129** for the metadata of an entity: if everything the entity states (or leaves out) complies with the policy, applying the policy succeeds and
changes nothing. Missing: `one_of` for list attributes, lists of objects and `scope` (refuted below). -/
theorem C129_metadata_partial (p : Policy) (m : EntityMeta) (ht : TypedPolicy m.fields p) (hf : ∀ f ∈ m.fields, FieldOk f)
    (hp : ∀ f ∈ m.fields, PlainFor p f) (hc : ∀ f ∈ m.fields, FieldComplies p m.wasSet f) :
    ∃ m', m.apply p = .ok m' ∧ Each SameField m.fields m'.fields ∧ m'.wasSet = m.wasSet ∧ m'.extra = m.extra := by
  obtain ⟨fs, h1, h2⟩ := fields_kept (p := p) (ws := m.wasSet) (fs := m.fields) (fun f hm =>
    field_kept (fun e he => (ht _ (get_mem he)).2 f hm rfl) (hf f hm) (hp f hm) (hc f hm))
  refine ⟨{ m with fields := fs }, ?_, h2, rfl, rfl⟩
  unfold EntityMeta.apply
  rw [h1]
  show Except.ok (EntityMeta.mk _ _ _) = _
  rw [if_pos (extraMap_same h2 hf)]

/-- Metadata with a list that complies, an absent attribute the policy is silent about, and an attribute without policy. -/
example : (∀ f ∈ [(⟨"Scopes", "scopes", .slice .str, sl ["b", "a"]⟩ : Field), ⟨"Name", "name", .str, .str ""⟩, ⟨"Uri", "uri", .str, .str "u"⟩],
      FieldOk f ∧ PlainFor [("scopes", [("subset_of", jl ["a", "b"])]), ("name", [("one_of", jl ["n"])])] f ∧
      FieldComplies [("scopes", [("subset_of", jl ["a", "b"])]), ("name", [("one_of", jl ["n"])])] ["Scopes", "Uri"] f) ∧
    TypedPolicy [(⟨"Scopes", "scopes", .slice .str, sl ["b", "a"]⟩ : Field), ⟨"Name", "name", .str, .str ""⟩, ⟨"Uri", "uri", .str, .str "u"⟩]
      [("scopes", [("subset_of", jl ["a", "b"])]), ("name", [("one_of", jl ["n"])])] := by
  constructor
  · intro f hf
    simp only [List.mem_cons, List.not_mem_nil, or_false] at hf
    rcases hf with rfl | rfl | rfl
    · refine ⟨⟨rfl, by simp, by simp⟩, ?_, ?_⟩
      · intro e he
        cases he
        exact ⟨by simp, by simp, by simp, fun _ _ h => by obtain ⟨v, hv⟩ := h; cases hv⟩
      · intro e he
        cases he
        refine .inl ⟨by simp, ⟨?_, ?_, ?_, ?_⟩, ?_, ?_⟩
        · intro _ s h _; cases h; decide
        · intro _ s h; cases h
        · intro _ s h; cases h
        · intro s h; cases h
        · intro s h; cases h
        · intro h; cases h
    · refine ⟨⟨rfl, by simp, by simp⟩, ?_, ?_⟩
      · intro e he
        cases he
        exact ⟨by simp, by simp, by simp, fun _ h => by cases h⟩
      · intro e he
        cases he
        refine .inr ⟨by simp, ?_, ?_, ?_, ?_⟩ <;> first | (rintro ⟨v, hv⟩; cases hv) | (intro h; cases h)
    · refine ⟨⟨rfl, by simp, by simp⟩, ?_, ?_⟩ <;> (intro e he; cases he)
  · intro ke hke
    simp only [List.mem_cons, List.not_mem_nil, or_false] at hke
    rcases hke with rfl | rfl
    · refine ⟨?_, ?_⟩
      · intro kv hkv
        simp only [List.mem_cons, List.not_mem_nil, or_false] at hkv
        subst hkv
        exact ⟨by simp [jl], fun _ => ⟨_, _, rfl⟩, fun _ => trivial, fun h => by simp at h⟩
      · intro f hf ht kv hkv
        simp only [List.mem_cons, List.not_mem_nil, or_false] at hkv hf
        subst hkv
        rcases hf with rfl | rfl | rfl
        · exact ⟨by simp [jl], fun _ => ⟨_, _, rfl⟩, fun _ => by show ∀ x ∈ _, _; decide, fun h => by simp at h⟩
        · exact absurd ht (by decide)
        · exact absurd ht (by decide)
    · refine ⟨?_, ?_⟩
      · intro kv hkv
        simp only [List.mem_cons, List.not_mem_nil, or_false] at hkv
        subst hkv
        exact ⟨by simp [jl], fun _ => ⟨_, _, rfl⟩, fun h => by simp at h, fun h => by simp at h⟩
      · intro f hf ht kv hkv
        simp only [List.mem_cons, List.not_mem_nil, or_false] at hkv hf
        subst hkv
        rcases hf with rfl | rfl | rfl
        · exact absurd ht (by decide)
        · exact ⟨by simp [jl], fun _ => ⟨_, _, rfl⟩, fun h => by simp at h, fun h => by simp at h⟩
        · exact absurd ht (by decide)

/-- **C129** is false for `scope`: a scope value all of whose words are allowed by `subset_of` is emptied, because the value is taken as one word. -/
theorem C129_scope_refuted : ¬ ∀ (ws allowed : List String), ws ≠ [] → (∀ w ∈ ws, w ∈ allowed) →
    EntityMeta.apply ⟨[⟨"Scope", "scope", .str, .str (scopeOf ws)⟩], ["Scope"], []⟩ [("scope", [("subset_of", jl allowed)])] =
      .ok ⟨[⟨"Scope", "scope", .str, .str (scopeOf ws)⟩], ["Scope"], []⟩ := by
  intro h
  have := h ["openid", "profile"] ["openid", "profile", "email"] (by simp) (by simp)
  have h2 : EntityMeta.apply ⟨[⟨"Scope", "scope", .str, .str (scopeOf ["openid", "profile"])⟩], ["Scope"], []⟩
    [("scope", [("subset_of", jl ["openid", "profile", "email"])])] = .ok ⟨[⟨"Scope", "scope", .str, .str ""⟩], ["Scope"], []⟩ := rfl
  rw [h2] at this
  have := congrArg (fun r => r.toOption.map (fun m => m.fields.map Field.val)) this
  revert this
  decide

/-- **C129** is false for `scope`: a scope value that has the words `superset_of` demands is refused. -/
theorem C129_scope_superset_refuted : ¬ ∀ (ws needed : List String), (∀ w ∈ needed, w ∈ ws) →
    ∃ m, EntityMeta.apply ⟨[⟨"Scope", "scope", .str, .str (scopeOf ws)⟩], ["Scope"], []⟩ [("scope", [("superset_of", jl needed)])] = .ok m := by
  intro h
  obtain ⟨m, hm⟩ := h ["openid", "profile"] ["openid"] (by simp)
  have h2 : EntityMeta.apply ⟨[⟨"Scope", "scope", .str, .str (scopeOf ["openid", "profile"])⟩], ["Scope"], []⟩
    [("scope", [("superset_of", jl ["openid"])])] = .error .error := rfl
  rw [h2] at hm
  cases hm

/-! ## C130 -/

/-- **C130** is false: verification accepts a `value` that lacks what `superset_of` demands; no metadata passes such a policy. -/
theorem C130_satisfiable_refuted : ¬ ∀ (p : Entry), p.verify = .ok () → KnownOps p → TypedEntry (.list .str) p → Satisfiable (.list .str) p := by
  intro h
  obtain ⟨v, isSet, _, _, hu, v', hv⟩ := h [("value", jl ["a"]), ("superset_of", jl ["b"]), ("essential", .bool true)] rfl (by
      rintro n ⟨v, hv⟩
      have hm := List.mem_map_of_mem (f := Prod.fst) (get_mem hv)
      simp only [List.map_cons, List.map_nil, List.mem_cons, List.not_mem_nil, or_false] at hm
      rcases hm with rfl | rfl | rfl <;> simp [Known]) (by
      intro kv hkv
      simp only [List.mem_cons, List.not_mem_nil, or_false] at hkv
      rcases hkv with rfl | rfl | rfl
      · exact ⟨by simp [jl], fun _ => ⟨_, _, rfl⟩, fun h => by simp at h, fun _ => ⟨_, _, rfl, by decide⟩⟩
      · exact ⟨by simp [jl], fun _ => ⟨_, _, rfl⟩, fun h => by simp at h, fun h => by simp at h⟩
      · exact ⟨by simp, fun h => by simp at h, fun h => by simp at h, fun h => by simp at h⟩)
  obtain ⟨ho, _⟩ := C19_restrictions_partial _ v isSet v' rfl hu hv
  have h1 := ho.superset (.inr rfl) _ rfl (by simp [jl]) (.str "b") (by decide)
  have h2 := (ho.value _ rfl (.str "b")).mp h1
  revert h2
  decide

/-- **C130** is false: verification accepts a `value` that is not among the values `one_of` allows. -/
theorem C130_value_one_of_refuted : ¬ ∀ (p : Entry), p.verify = .ok () → KnownOps p → TypedEntry (.scalar .str) p → Satisfiable (.scalar .str) p := by
  intro h
  obtain ⟨v, isSet, _, _, hu, v', hv⟩ := h [("value", .str "a"), ("one_of", jl ["b"]), ("essential", .bool true)] rfl (by
      rintro n ⟨v, hv⟩
      have hm := List.mem_map_of_mem (f := Prod.fst) (get_mem hv)
      simp only [List.map_cons, List.map_nil, List.mem_cons, List.not_mem_nil, or_false] at hm
      rcases hm with rfl | rfl | rfl <;> simp [Known]) (by
      intro kv hkv
      simp only [List.mem_cons, List.not_mem_nil, or_false] at hkv
      rcases hkv with rfl | rfl | rfl
      · exact ⟨by simp, fun h => by simp at h, fun h => by simp at h, fun _ => ⟨rfl, rfl⟩⟩
      · exact ⟨by simp [jl], fun _ => ⟨_, _, rfl⟩, fun h => by simp at h, fun h => by simp at h⟩
      · exact ⟨by simp, fun h => by simp at h, fun h => by simp at h, fun h => by simp at h⟩)
  obtain ⟨ho, _⟩ := C19_restrictions_partial _ v isSet v' rfl hu hv
  have h1 := ho.oneOf (.inr rfl) _ rfl (by simp [jl])
  have h3 : v' = .str "b" := by simpa [jl, Val.elems] using h1
  subst h3
  have h2 := (ho.value _ rfl (.str "b")).mp (by decide)
  revert h2
  decide

/-- **C130** is false also for `default`: verification accepts a `default` that is not among the values `one_of` allows; then an
entity that leaves the attribute out is refused, although a default is given for it. -/
theorem C130_default_refuted : ¬ ∀ (p : Entry) (d : Val), p.verify = .ok () → p.get "default" = some d → TypedEntry (.scalar .str) p →
    ∃ v', p.applyTo (.str "") false = .ok v' := by
  intro h
  obtain ⟨v', hv⟩ := h [("default", .str "a"), ("one_of", jl ["b"])] (.str "a") rfl rfl (by
      intro kv hkv
      simp only [List.mem_cons, List.not_mem_nil, or_false] at hkv
      rcases hkv with rfl | rfl
      · exact ⟨by simp, fun h => by simp at h, fun h => by simp at h, fun _ => ⟨rfl, rfl⟩⟩
      · exact ⟨by simp [jl], fun _ => ⟨_, _, rfl⟩, fun h => by simp at h, fun h => by simp at h⟩)
  have : Entry.applyTo [("default", .str "a"), ("one_of", jl ["b"])] (.str "") false = .error .error := rfl
  rw [this] at hv
  cases hv

theorem no_get {p : Entry} {n : String} (h : ¬ Has p n) : p.get n = none := by
  cases hg : p.get n with
  | none => rfl
  | some w => exact absurd ⟨w, hg⟩ h

/-- Where `value` is given, the attribute counts as set from then on. -/
theorem value_superset {p : Entry} (hv : p.verify = .ok ()) {c c' : Cur} (h : p.applyCur c = .ok c') {s w : Val}
    (hw : p.get "value" = some w) (hn : w ≠ .nil) (hs : p.get "superset_of" = some s) : ∀ x ∈ s.elems, x ∈ w.elems := by
  have hel := value_elems hv h hw
  obtain ⟨c1, c2, c3, c4, c5, c6, h1, h2, h3, h4, h5, h6, h7⟩ := applyCur_steps h
  have e4 := (oneOf_step h4).1
  obtain ⟨e6, hsup⟩ := superset_step h6
  have e7 := (essential_step h7).1
  subst e4 e6 e7
  rw [show p.get opValue = p.get "value" from rfl, hw] at h1
  have b1 : c1.isSet = true ∧ c1.v ≠ .nil := by
    rcases applyValue_ok h1 with ⟨h, _⟩ | ⟨_, h2, h3, _⟩
    · exact absurd h hn
    · exact ⟨h2, h3⟩
  have b2 : c2.isSet = true := by
    cases hadd : p.get opAdd with
    | none => rw [hadd] at h2; rw [optStep_none h2]; exact b1.1
    | some a =>
      rw [hadd] at h2
      rcases applyAdd_ok h2 with ⟨hc, _⟩ | ⟨_, _, rfl⟩ | ⟨_, _, hs2, _⟩
      · exact absurd hc b1.2
      · exact b1.1
      · exact hs2
  have b3 : c4.isSet = true := by
    cases hd : p.get opDefault with
    | none => rw [hd] at h3; rw [optStep_none h3]; exact b2
    | some d =>
      rw [hd] at h3
      rcases applyDefault_ok h3 with ⟨_, _, h, _⟩ | ⟨_, rfl⟩
      · exact h
      · exact b2
  have b5 : c'.isSet = true := by
    rcases subset_step h5 with ⟨_, _, _, _, _, h, _⟩ | ⟨rfl, _⟩
    · exact h
    · exact b3
  intro x hx
  rw [← hel]
  exact (hsup s hs (by rintro rfl; simp [Val.elems] at hx) (.inl b5)).2 x hx

/-- **C130** for list attributes: a verified entry can be satisfied exactly if its `value`, when it has one, includes what `superset_of` demands. Missing:
that verification guarantees this (refuted above); `one_of`, which is not for lists. -/
theorem C130_list_partial (e : ETy) (he : e ≠ .obj ∧ e ≠ .ptr) (p : Entry) (hv : p.verify = .ok ()) (hk : KnownOps p) (ht : TypedEntry (.list e) p)
    (hsup : ∀ s, p.get "superset_of" = some s → ∀ x ∈ s.elems, fitsElem e x = true) (ho : ¬ Has p "one_of") :
    Satisfiable (.list e) p ↔ ∀ s w, p.get "superset_of" = some s → p.get "value" = some w → ∀ x ∈ s.elems, x ∈ w.elems := by
  obtain ⟨al, _⟩ := (verify_iff_allowed hk).mp hv
  constructor
  · rintro ⟨v, isSet, _, _, _, v', hap⟩ s w hs hw
    unfold Entry.applyTo at hap
    cases hc : p.applyCur ⟨v, isSet⟩ with
    | error f => rw [hc] at hap; cases hap
    | ok c' => exact value_superset hv hc hw (typed_get ht hw).notNull hs
  intro hval
  have hgetD : ∀ op x, x ∈ ((p.get op).map Val.elems).getD [] → ∃ s, p.get op = some s ∧ x ∈ s.elems := by
    intro op x hx
    cases hg : p.get op with
    | none => rw [hg] at hx; simp at hx
    | some s => rw [hg] at hx; exact ⟨s, rfl, hx⟩
  let xs := match p.get "value" with
    | some w => w.elems
    | none => ((p.get "superset_of").map Val.elems).getD [] ++ ((p.get "add").map Val.elems).getD []
  have hfit : ∀ x ∈ xs, fitsElem e x = true := by
    intro x hx
    dsimp only [xs] at hx
    split at hx
    · rename_i w hw
      obtain ⟨m, ys, rfl, hy⟩ := (typed_get ht hw).value (.inl rfl)
      exact hy x hx
    · rw [List.mem_append] at hx
      rcases hx with hx | hx
      · obtain ⟨t, h1, h2⟩ := hgetD _ _ hx; exact hsup t h1 x h2
      · obtain ⟨t, h1, h2⟩ := hgetD _ _ hx; exact (typed_get ht h1).elems (.inl rfl) x h2
  have hc : Complies p (.slice e false xs) := by
    constructor
    · constructor
      · intro _ s hs _ x hx
        have hx : x ∈ xs := hx
        dsimp only [xs] at hx
        split at hx
        · rename_i w hw; exact al.valueInSubset _ _ hw hs x hx
        · rw [List.mem_append] at hx
          rcases hx with hx | hx
          · obtain ⟨t, h1, h2⟩ := hgetD _ _ hx; exact al.supersetInSubset _ _ h1 hs x h2
          · obtain ⟨t, h1, h2⟩ := hgetD _ _ hx; exact al.addInSubset _ _ h1 hs x h2
      · intro _ s hs _ x hx
        show x ∈ xs
        dsimp only [xs]
        split
        · rename_i w hw; exact hval s w hs hw x hx
        · rw [List.mem_append, hs]; exact .inl hx
      · intro _ s hs; exact absurd ⟨s, hs⟩ ho
      · intro s hs x
        show x ∈ xs ↔ _
        dsimp only [xs]
        rw [hs]
    · intro a ha x hx
      show x ∈ xs
      dsimp only [xs]
      split
      · rename_i w hw; exact al.addInValue _ _ ha hw x hx
      · rw [List.mem_append, ha]; exact .inr hx
    · intro _ hu; cases hu
  obtain ⟨v', h1, _⟩ := C129_accepted_partial (.list e) p _ ht ⟨he.1, he.2, _, _, rfl⟩ (fun _ => ho) hc
  refine ⟨_, true, ⟨he.1, he.2, _, _, rfl⟩, ?_, (by simp), v', h1⟩
  intro e' n' ys h
  cases h
  exact hfit

/-- The hypotheses on lists are met, and both outcomes occur. -/
example : Entry.verify [("add", jl ["a"]), ("subset_of", jl ["a", "b", "c"]), ("superset_of", jl ["b"]), ("default", jl ["z"])] = .ok () ∧
    Satisfiable (.list .str) [("add", jl ["a"]), ("subset_of", jl ["a", "b", "c"]), ("superset_of", jl ["b"]), ("default", jl ["z"])] := by
  refine ⟨rfl, (C130_list_partial .str (by decide) _ rfl ?_ exTyped ?_ ?_).mpr ?_⟩
  · rintro n ⟨v, hv⟩
    have hm := List.mem_map_of_mem (f := Prod.fst) (get_mem hv)
    simp only [List.map_cons, List.map_nil, List.mem_cons, List.not_mem_nil, or_false] at hm
    rcases hm with rfl | rfl | rfl | rfl <;> simp [Known]
  · intro s hs; cases hs; decide
  · rintro ⟨v, hv⟩; cases hv
  · intro s w _ hw; cases hw

/-- **C130** for single values: an entry that fixes the `value` can be satisfied exactly if the value is allowed by `one_of` and, for an essential attribute,
is not empty. -/
theorem C130_value_partial (ty : Ty) (p : Entry) (ht : TypedEntry (.scalar ty) p) (hsup : ¬ Has p "superset_of") (w : Val)
    (hw : p.get "value" = some w) :
    Satisfiable (.scalar ty) p ↔ (∀ s, p.get "one_of" = some s → w ∈ s.elems) ∧ (Essential p → ¬ Unset w) := by
  have hnn := (typed_get ht hw).notNull
  have hval : ValueOk (.scalar ty) w := (typed_get ht hw).value (.inl rfl)
  constructor
  · rintro ⟨v, isSet, _, _, _, v', hap⟩
    unfold Entry.applyTo at hap
    cases hc : p.applyCur ⟨v, isSet⟩ with
    | error f => rw [hc] at hap; cases hap
    | ok c' =>
      obtain ⟨c1, c2, c3, c4, c5, c6, h1, h2, h3, h4, h5, h6, h7⟩ := applyCur_steps hc
      obtain ⟨e4, hone⟩ := oneOf_step h4
      have e6 := (superset_step h6).1
      obtain ⟨e7, hess⟩ := essential_step h7
      subst e4 e6 e7
      rw [show p.get opValue = p.get "value" from rfl, hw] at h1
      have b1 : c1.isSet = true ∧ c1.v = w := by
        rcases applyValue_ok h1 with ⟨h, _⟩ | ⟨_, h2, _, _, h3, _⟩
        · exact absurd h hnn
        · exact ⟨h2, h3 hval.2⟩
      have b2 : c2 = c1 := by
        cases hadd : p.get opAdd with
        | none => rw [hadd] at h2; exact optStep_none h2
        | some a => exact ((typed_get ht hadd).elems (.inl rfl)).elim
      subst b2
      have b3 : c4 = c2 := by
        cases hd : p.get opDefault with
        | none => rw [hd] at h3; exact optStep_none h3
        | some d =>
          rw [hd] at h3
          rcases applyDefault_ok h3 with ⟨hc, _⟩ | ⟨_, rfl⟩
          · rw [b1.1] at hc; cases hc
          · rfl
      subst b3
      have b5 : c' = c4 := by
        cases hadd : p.get opSubsetOf with
        | none => rw [hadd] at h5; exact optStep_none h5
        | some a => exact ((typed_get ht hadd).elems (.inr rfl)).elim
      subst b5
      refine ⟨fun s hs => ?_, fun he => ?_⟩
      · rw [← b1.2]; exact (hone s hs (typed_get ht hs).notNull (.inl b1.1)).2
      · rcases hess he with h | h
        · rw [b1.2, hval.2] at h; cases h
        · rw [← b1.2]; exact h
  · rintro ⟨hone, hess⟩
    have hc : Complies p w := by
      refine ⟨⟨?_, ?_, ?_, ?_⟩, ?_, hess⟩
      · intro _ s h; exact ((typed_get ht h).elems (.inr rfl)).elim
      · intro _ s h; exact absurd ⟨s, h⟩ hsup
      · intro _ s h _; exact hone s h
      · intro s h x; rw [hw] at h; cases h; exact Iff.rfl
      · intro s h; exact ((typed_get ht h).elems (.inl rfl)).elim
    obtain ⟨v', h1, _⟩ := C129_accepted_partial (.scalar ty) p w ht hval (fun h => by rw [hval.2] at h; cases h) hc
    refine ⟨w, true, hval, ?_, (by simp), v', h1⟩
    rintro e n xs rfl
    cases hval.2

/-- **C130** for single values, without `value`: whatever `one_of` allows is accepted, if it is of the attribute's type and, for an essential attribute, not empty. -/
theorem C130_scalar_partial (ty : Ty) (p : Entry) (ht : TypedEntry (.scalar ty) p) (v : Val) (hs : HasShape (.scalar ty) v)
    (hsup : ¬ Has p "superset_of") (hval : ¬ Has p "value") (hone : ∀ s, p.get "one_of" = some s → v ∈ s.elems)
    (hess : Essential p → ¬ Unset v) : p.applyTo v true = .ok v := by
  have hc : Complies p v := by
    refine ⟨⟨?_, ?_, ?_, ?_⟩, ?_, hess⟩
    · intro _ s h; exact ((typed_get ht h).elems (.inr rfl)).elim
    · intro _ s h; exact absurd ⟨s, h⟩ hsup
    · intro _ s h _; exact hone s h
    · intro s h; exact absurd ⟨s, h⟩ hval
    · intro s h; exact ((typed_get ht h).elems (.inl rfl)).elim
  unfold Entry.applyTo
  rw [scalar_kept ht hs.1 hs.2 hc]
  rfl

/-- **C130** for `default`: if the verifiers that are not registered accept the entry as well, an attribute that is left out gets the default. Missing: that these
verifiers are run (refuted above); `add`, which comes before `default`. -/
theorem C130_default_partial (sh : Shape) (p : Entry) (hu : unregisteredVerifiers p = .ok ()) (ht : TypedEntry sh p) (v d : Val)
    (hs : HasShape sh v) (hv : Unset v) (hd : p.get "default" = some d) (hval : ¬ Has p "value") (hadd : ¬ Has p "add")
    (ho : d.isSlice = true → ¬ Has p "one_of") (hess : EssentialOk p d) :
    ∃ v', p.applyTo v false = .ok v' ∧ v'.elems = d.elems := by
  obtain ⟨_, u1, hu⟩ := bind_ok hu
  obtain ⟨_, u2, hu⟩ := bind_ok hu
  obtain ⟨_, u3, u4⟩ := bind_ok hu
  have hdn := (typed_get ht hd).notNull
  -- the value after `default`
  have key : ∃ v1, reflectSliceCast d (slicify v) = .ok v1 ∧ HasShape sh v1 ∧ v1.elems = d.elems ∧ (d.isSlice = false → v1 = d) ∧
      (d.isSlice = true → v1.isZero = false) ∧ v1.isSlice = d.isSlice := by
    cases sh with
    | list e =>
      obtain ⟨e1, e2, n, xs, rfl⟩ := hs
      obtain ⟨m, ys, rfl, hy⟩ := (typed_get ht hd).value (.inr rfl)
      refine ⟨.slice e false ys, ?_, ⟨e1, e2, _, _, rfl⟩, rfl, by simp [Val.isSlice], fun _ => rfl, rfl⟩
      show Except.map Slc.toVal (castSlc ⟨.any, m, ys⟩ (some ⟨e, n, xs⟩)) = _
      rw [cast_list ⟨e1, e2⟩ hy rfl]
      rfl
    | scalar ty =>
      have hval : ValueOk (.scalar ty) d := (typed_get ht hd).value (.inr rfl)
      refine ⟨d, ?_, hval, rfl, fun _ => rfl, fun h => ?_, rfl⟩
      · have := hval.2
        cases d <;> first | rfl | (simp [Val.isSlice] at this)
      · rw [hval.2] at h; cases h
    | scope => exact hs.elim
    | «opaque» => exact hs.elim
    | unknown => exact hs.elim
  obtain ⟨v1, k1, k2, k3, k4, k5, k6⟩ := key
  have hv1n : v1 ≠ .nil := by
    rintro rfl
    cases sh with
    | list e => obtain ⟨_, _, _, _, h⟩ := k2; cases h
    | scalar ty => cases k2.1
    | scope => exact hs.elim
    | «opaque» => exact hs.elim
    | unknown => exact hs.elim
  have hc : Complies p v1 := by
    refine ⟨⟨?_, ?_, ?_, ?_⟩, ?_, ?_⟩
    · intro _ s h _ x hx
      have h : p.get opSubsetOf = some s := h
      have hd : p.get opDefault = some d := hd
      unfold vDefaultInSubset vSubset at u2
      rw [hd, h] at u2
      obtain ⟨b, hb, u2⟩ := bind_ok u2
      cases b with
      | false => cases u2
      | true => exact (reflectIsSubsetOf_true.mp hb).2 x (by rw [← k3]; exact hx)
    · intro _ s h _ x hx
      have h : p.get opSupersetOf = some s := h
      have hd : p.get opDefault = some d := hd
      unfold vDefaultSuperset at u3
      rw [hd, h] at u3
      obtain ⟨b, hb, u3⟩ := bind_ok u3
      cases b with
      | false => cases u3
      | true => rw [k3]; exact (reflectIsSubsetOf_true.mp hb).2 x hx
    · intro _ s h _
      cases hsl : d.isSlice with
      | true => exact absurd ⟨s, h⟩ (ho hsl)
      | false =>
        rw [k4 hsl]
        have h : p.get opOneOf = some s := h
        have hd : p.get opDefault = some d := hd
        unfold vDefaultInOneOf at u1
        rw [hd, h] at u1
        dsimp only at u1
        split at u1
        · rename_i hh; exact (sliceContains_iff d s).mp hh
        · cases u1
    · intro s h; exact absurd ⟨s, h⟩ hval
    · intro s h; exact absurd ⟨s, h⟩ hadd
    · intro he hun
      cases hsl : d.isSlice with
      | true =>
        have := (isZero_iff v1).mpr hun
        rw [k5 hsl, (isNilIface_false v1).mpr hv1n] at this
        cases this
      | false => rw [k4 hsl] at hun; exact hess he hun
  have hset : ∃ c, p.applyCur ⟨v1, true⟩ = .ok c ∧ c.v.elems = d.elems := by
    cases sh with
    | list e =>
      obtain ⟨e1, e2, n, xs, rfl⟩ := k2
      obtain ⟨c, hk, n', ys, rfl, _, l2⟩ := list_kept ⟨e1, e2⟩ ht hc (ho (by rw [← k6]; rfl))
      refine ⟨_, hk, ?_⟩
      rw [← k3, l2 (no_get hval)]
      rfl
    | scalar ty => exact ⟨_, scalar_kept ht k2.1 k2.2 hc, k3⟩
    | scope => exact hs.elim
    | «opaque» => exact hs.elim
    | unknown => exact hs.elim
  obtain ⟨c, hc2, hel⟩ := hset
  obtain ⟨c1, c2, c3, c4, c5, c6, h1, h2, h3, h4, h5, h6, h7⟩ := applyCur_steps hc2
  have g1 : p.get opValue = none := no_get hval
  have g2 : p.get opAdd = none := no_get hadd
  have g3 : p.get opDefault = some d := hd
  rw [g1] at h1
  have e1 := optStep_none h1
  subst e1
  rw [g2] at h2
  have e2 := optStep_none h2
  subst e2
  have e3 : c3 = ⟨v1, true⟩ := by
    rw [g3] at h3
    have h3 : Except.ok (⟨v1, true⟩ : Cur) = .ok c3 := h3
    exact (Except.ok.inj h3).symm
  subst e3
  have : p.applyCur ⟨v, false⟩ = .ok c := by
    refine applyCur_of_steps (c1 := ⟨v, false⟩) (c2 := ⟨v, false⟩) ?_ ?_ ?_ h4 h5 h6 h7
    · rw [g1]; rfl
    · rw [g2]; rfl
    · rw [g3]
      show applyDefault _ _ = _
      unfold applyDefault
      rw [if_pos (by simpa using (isZero_iff v).mpr hv)]
      rw [k1]
      rfl
  refine ⟨c.v, ?_, hel⟩
  unfold Entry.applyTo
  rw [this]
  rfl

/-- A default that all verifiers accept, and the result. -/
example : unregisteredVerifiers [("default", jl ["a", "b"]), ("subset_of", jl ["a", "b", "c"]), ("superset_of", jl ["b"])] = .ok () ∧
    Entry.applyTo [("default", jl ["a", "b"]), ("subset_of", jl ["a", "b", "c"]), ("superset_of", jl ["b"])] (.slice .str true []) false =
      .ok (sl ["a", "b"]) ∧
    unregisteredVerifiers [("default", .str "a"), ("one_of", jl ["b"])] = .error .error := ⟨rfl, rfl, rfl⟩

/-- `value` with and without the agreement of `one_of`. -/
example : Entry.applyTo [("value", .str "a"), ("one_of", jl ["a"]), ("essential", .bool true)] (.str "x") true = .ok (.str "a") ∧
    Entry.applyTo [("value", .str "a"), ("one_of", jl ["b"])] (.str "b") true = .error .error ∧
    Entry.applyTo [("one_of", jl ["b", ""]), ("essential", .bool true)] (.str "b") true = .ok (.str "b") ∧
    Entry.applyTo [("one_of", jl ["b", ""]), ("essential", .bool true)] (.str "") true = .error .error := ⟨rfl, rfl, rfl, rfl⟩

end Oidfed
