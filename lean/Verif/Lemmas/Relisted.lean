import Verif.Spec.Relisted
import Verif.Lemmas.Slices
import Verif.Lemmas.MetadataApply
import Verif.Lemmas.AnyOrderPolicy
/-!
# The order of the elements of lists in policies
-/

namespace Oidfed
open Spec

theorem sameSet_contains {xs ys : List Val} (h : SameSet xs ys) (v : Val) : xs.contains v = ys.contains v := by
  rw [Bool.eq_iff_iff]
  simp only [List.contains_iff_mem]
  exact h v

theorem sameSet_empty {xs ys : List Val} (h : SameSet xs ys) : xs.isEmpty = ys.isEmpty := by
  rw [Bool.eq_iff_iff, List.isEmpty_iff, List.isEmpty_iff]
  constructor
  · rintro rfl
    exact List.eq_nil_iff_forall_not_mem.mpr fun v hv => by cases (h v).mpr hv
  · rintro rfl
    exact List.eq_nil_iff_forall_not_mem.mpr fun v hv => by cases (h v).mp hv

theorem sameSet_all {xs ys : List Val} (h : SameSet xs ys) (f : Val → Bool) : xs.all f = ys.all f := by
  rw [Bool.eq_iff_iff]
  simp only [List.all_eq_true]
  exact ⟨fun H v hv => H v ((h v).mpr hv), fun H v hv => H v ((h v).mp hv)⟩

/-- Slices of the same type with the same elements. -/
structure SameSlc (s t : Slc) : Prop where
  e : t.e = s.e
  xs : SameSet s.xs t.xs

theorem SameSlc.val {s t : Slc} (h : SameSlc s t) : SameValue s.toVal t.toVal :=
  .inr ⟨s.e, s.isNil, t.isNil, s.xs, t.xs, rfl, by unfold Slc.toVal; rw [h.e], h.xs⟩

theorem sameValue_refl (v : Val) : SameValue v v := .inl rfl

theorem slicify_rel {v w : Val} (h : SameValue v w) : Option.Rel SameSlc (slicify v) (slicify w) := by
  rcases h with rfl | ⟨e, n, n', xs, ys, rfl, rfl, h⟩
  · cases slicify w with
    | none => exact .none
    | some s => exact .some ⟨rfl, fun _ => Iff.rfl⟩
  · exact .some ⟨rfl, h⟩

theorem isNil_rel {v w : Val} (h : SameValue v w) : w.isNilIface = v.isNilIface := by
  rcases h with rfl | ⟨e, n, n', xs, ys, rfl, rfl, h⟩ <;> rfl

theorem castSlc_rel {s s' : Slc} {t t' : Option Slc} (hs : SameSlc s s') (ht : Option.Rel SameSlc t t') {r : Slc} (h : castSlc s t = .ok r) :
    ∃ r', castSlc s' t' = .ok r' ∧ SameSlc r r' := by
  cases ht with
  | none => cases h
  | some ht =>
    rename_i a b
    unfold castSlc at h ⊢
    simp only at h ⊢
    rw [hs.e, ht.e, ← sameSet_all hs.xs]
    split at h
    · rename_i hc
      cases h
      rw [if_pos hc]
      exact ⟨_, rfl, rfl, hs.xs⟩
    · cases h

theorem unionSlc_rel {a a' b b' : Option Slc} (ha : Option.Rel SameSlc a a') (hb : Option.Rel SameSlc b b') {r : Slc} (h : unionSlc a b = .ok r) :
    ∃ r', unionSlc a' b' = .ok r' ∧ SameSlc r r' := by
  cases hb with
  | none => cases ha <;> cases h
  | some hb =>
    cases ha with
    | none => cases h
    | some ha =>
      rename_i b b' a a'
      unfold unionSlc at h ⊢
      simp only at h ⊢
      rw [← sameSet_empty hb.xs, ← sameSet_empty ha.xs]
      by_cases he : b.xs.isEmpty = true
      · rw [if_pos he] at h ⊢
        cases h
        exact ⟨a', rfl, ha⟩
      · rw [if_neg he] at h ⊢
        obtain ⟨c, hc, h⟩ := bind_ok h
        have : ∃ c', (if (a.xs.isEmpty || a'.e != b'.e) = true then castSlc b' (some a') else .ok b') = .ok c' ∧ SameSlc c c' := by
          rw [ha.e, hb.e]
          split at hc
          · rename_i hx
            rw [if_pos hx]
            exact castSlc_rel hb (.some ha) hc
          · rename_i hx
            cases hc
            rw [if_neg hx]
            exact ⟨b', rfl, hb⟩
        obtain ⟨c', hc', hr⟩ := this
        rw [hc']
        show ∃ r', (if a.xs.isEmpty = true then Except.ok c' else Except.ok ⟨a'.e, false, unionLoop a'.xs c'.xs⟩) = .ok r' ∧ SameSlc r r'
        split at h
        · rename_i hx
          cases h
          rw [if_pos hx]
          exact ⟨c', rfl, hr⟩
        · rename_i hx
          cases h
          rw [if_neg hx]
          refine ⟨_, rfl, ha.e, fun v => ?_⟩
          show v ∈ unionLoop a.xs c.xs ↔ v ∈ unionLoop a'.xs c'.xs
          rw [unionLoop_mem, unionLoop_mem, ha.xs v, hr.xs v]

theorem intersectSlc_rel {a a' b b' : Option Slc} (ha : Option.Rel SameSlc a a') (hb : Option.Rel SameSlc b b') {r : Slc} (h : intersectSlc a b = .ok r) :
    ∃ r', intersectSlc a' b' = .ok r' ∧ SameSlc r r' := by
  cases ha with
  | none => cases h
  | some ha =>
    cases hb with
    | none => cases h
    | some hb =>
      rename_i a a' b b'
      unfold intersectSlc at h ⊢
      simp only at h ⊢
      obtain ⟨c, hc, h⟩ := bind_ok h
      have : ∃ c', (if (a'.e != b'.e) = true then castSlc b' (some a') else .ok b') = .ok c' ∧ SameSlc c c' := by
        rw [ha.e, hb.e]
        split at hc
        · rename_i hx
          rw [if_pos hx]
          exact castSlc_rel hb (.some ha) hc
        · rename_i hx
          cases hc
          rw [if_neg hx]
          exact ⟨b', rfl, hb⟩
      obtain ⟨c', hc', hr⟩ := this
      rw [hc']
      cases h
      refine ⟨_, rfl, ha.e, fun v => ?_⟩
      simp only [List.mem_filter, List.contains_iff_mem]
      rw [ha.xs v, hr.xs v]

/-- The same current value. -/
structure SameCur (c d : Cur) : Prop where
  set : d.isSet = c.isSet
  val : SameValue c.v d.v
  unset : c.isSet = false → d.v = c.v

theorem SameCur.refl (c : Cur) : SameCur c c := ⟨rfl, .inl rfl, fun _ => rfl⟩

theorem sameCur_set {v w : Val} (h : SameValue v w) : SameCur ⟨v, true⟩ ⟨w, true⟩ := ⟨rfl, h, fun h => by cases h⟩

theorem map_val {x y : Res Slc} (h : ∀ r, x = .ok r → ∃ r', y = .ok r' ∧ SameSlc r r') {v : Val} (hv : x.map Slc.toVal = .ok v) :
    ∃ w, y.map Slc.toVal = .ok w ∧ SameValue v w := by
  cases x with
  | error e => cases hv
  | ok r =>
    cases hv
    obtain ⟨r', rfl, hr⟩ := h r rfl
    exact ⟨r'.toVal, rfl, hr.val⟩

theorem cast_rel {x y : Val} (h : SameValue x y) {t t' : Option Slc} (ht : Option.Rel SameSlc t t') {v : Val} (hv : reflectSliceCast x t = .ok v) :
    ∃ w, reflectSliceCast y t' = .ok w ∧ SameValue v w := by
  rcases h with rfl | ⟨e, n, n', xs, ys, rfl, rfl, h⟩
  · cases y with
    | slice e n xs => exact map_val (fun r hr => castSlc_rel ⟨rfl, fun _ => Iff.rfl⟩ ht hr) hv
    | _ => exact ⟨v, hv, .inl rfl⟩
  · exact map_val (fun r hr => castSlc_rel (s := ⟨e, n, xs⟩) (s' := ⟨e, n', ys⟩) ⟨rfl, h⟩ ht hr) hv

theorem op_relisted {o : Op} {c d r : Cur} {x y : Val} {ess : Bool} (hc : SameCur c d) (hxy : SameValue x y) (ho : o = .oneOf → ∀ v ∈ x.elems, v.isSlice = false)
    (h : o.apply c x ess = .ok r) : ∃ s, o.apply d y ess = .ok s ∧ SameCur r s := by
  have hn := isNil_rel hxy
  have hnc := isNil_rel hc.val
  -- the tests made by the three restricting operators
  have restrict : ∀ {A B : Res Cur}, (∀ r, A = .ok r → ∃ s, B = .ok s ∧ SameCur r s) →
      (if (!c.isSet && !ess) = true then Except.ok c else if x.isNilIface = true then .ok c else if (!c.isSet) = true then .error .error else A) = .ok r →
      ∃ s, (if (!d.isSet && !ess) = true then Except.ok d else if y.isNilIface = true then .ok d else if (!d.isSet) = true then .error .error else B) = .ok s ∧ SameCur r s := by
    intro A B hAB h
    rw [hc.set, hn]
    split at h
    · rename_i h1; rw [if_pos h1]; cases h; exact ⟨d, rfl, hc⟩
    · rename_i h1
      rw [if_neg h1]
      split at h
      · rename_i h2; rw [if_pos h2]; cases h; exact ⟨d, rfl, hc⟩
      · rename_i h2
        rw [if_neg h2]
        split at h
        · cases h
        · rename_i h3
          rw [if_neg h3]
          exact hAB r h
  cases o with
  | add =>
    have h : applyAdd c x = .ok r := h
    show ∃ s, applyAdd d y = .ok s ∧ SameCur r s
    unfold applyAdd at h ⊢
    rw [hnc, hn]
    split at h
    · rename_i h1
      rw [if_pos h1]
      cases h
      refine ⟨⟨y, !x.isNilIface⟩, rfl, rfl, hxy, ?_⟩
      intro hf
      rcases hxy with rfl | ⟨e, n, n', xs, ys, rfl, rfl, _⟩
      · rfl
      · cases hf
    · rename_i h1
      rw [if_neg h1]
      split at h
      · rename_i h2; rw [if_pos h2]; cases h; exact ⟨d, rfl, hc⟩
      · rename_i h2
        rw [if_neg h2]
        obtain ⟨v, hv, h⟩ := bind_ok h
        cases h
        obtain ⟨w, hw, hs⟩ := map_val (fun r hr => unionSlc_rel (slicify_rel hc.val) (slicify_rel hxy) hr) hv
        refine ⟨⟨w, true⟩, ?_, sameCur_set hs⟩
        show (reflectUnion d.v y >>= _) = _
        unfold reflectUnion
        rw [hw]
        rfl
  | subsetOf =>
    refine restrict (fun r h => ?_) h
    obtain ⟨v, hv, h⟩ := bind_ok h
    cases h
    obtain ⟨w, hw, hs⟩ := intersectSlc_rel (slicify_rel hc.val) (slicify_rel hxy) hv
    refine ⟨⟨w.toVal, true⟩, ?_, sameCur_set hs.val⟩
    rw [hw]
    rfl
  | oneOf =>
    refine restrict (fun r h => ?_) h
    split at h
    · cases h
    · rename_i hx
      cases h
      have hx : sliceContains c.v (slicify x) = true := by simpa using hx
      have : sliceContains d.v (slicify y) = true := by
        have hr := slicify_rel hxy
        cases hsx : slicify x with
        | none => rw [hsx] at hx; cases hx
        | some s =>
          rw [hsx] at hx hr
          cases hsy : slicify y with
          | none => rw [hsy] at hr; cases hr
          | some t =>
            rw [hsy] at hr
            cases hr with
            | some hr =>
              have hx : s.xs.contains c.v = true := hx
              have hd : d.v = c.v := by
                rcases hc.val with h | ⟨e, n, n', xs, ys, h, _, _⟩
                · exact h
                · have hm : c.v ∈ x.elems := by
                    have := List.contains_iff_mem.mp hx
                    cases x <;> cases hsx <;> exact this
                  have := ho rfl _ hm
                  rw [h] at this
                  cases this
              show t.xs.contains d.v = true
              rw [hd, ← sameSet_contains hr.xs]
              exact hx
      rw [this]
      exact ⟨d, rfl, hc⟩
  | supersetOf =>
    refine restrict (fun r h => ?_) h
    obtain ⟨b, hb, h⟩ := bind_ok h
    have : reflectIsSupersetOf d.v y = .ok b := by
      unfold reflectIsSupersetOf reflectIsSubsetOf at hb ⊢
      have hr := slicify_rel hxy
      have hr' := slicify_rel hc.val
      have hcon : ∀ v, sliceContains v (slicify d.v) = sliceContains v (slicify c.v) := by
        intro v
        generalize slicify c.v = a at hr'
        generalize slicify d.v = a' at hr'
        cases hr' with
        | none => rfl
        | some h => exact (sameSet_contains h.xs v).symm
      generalize slicify x = a at hr hb
      generalize slicify y = a' at hr
      cases hr with
      | none => cases hb
      | some h =>
        simp only at hb ⊢
        rw [← hb, sameSet_all h.xs]
        simp only [hcon]
    rw [this]
    show ∃ s, (if (!b) = true then Except.error Fail.error else .ok d) = .ok s ∧ SameCur r s
    cases b with
    | false => cases h
    | true => cases h; exact ⟨d, rfl, hc⟩
  | value =>
    have h : applyValue c x = .ok r := h
    show ∃ s, applyValue d y = .ok s ∧ SameCur r s
    unfold applyValue at h ⊢
    rw [hn]
    split at h
    · rename_i h1; rw [if_pos h1]; cases h; exact ⟨_, rfl, SameCur.refl _⟩
    · rename_i h1
      rw [if_neg h1]
      obtain ⟨v, hv, h⟩ := bind_ok h
      cases h
      obtain ⟨w, hw, hs⟩ := cast_rel hxy (slicify_rel hc.val) hv
      refine ⟨⟨w, true⟩, ?_, sameCur_set hs⟩
      rw [hw]
      rfl
  | default =>
    have h : applyDefault c x = .ok r := h
    show ∃ s, applyDefault d y = .ok s ∧ SameCur r s
    unfold applyDefault at h ⊢
    cases hs : c.isSet with
    | true =>
      rw [hs] at h
      rw [hc.set, hs]
      cases h
      exact ⟨d, rfl, hc⟩
    | false =>
      rw [hs] at h
      rw [hc.set, hs, hc.unset hs]
      split at h
      · rename_i h1
        rw [if_pos h1]
        obtain ⟨v, hv, h⟩ := bind_ok h
        cases h
        have hcv := slicify_rel (sameValue_refl c.v)
        obtain ⟨w, hw, hs⟩ := cast_rel hxy hcv hv
        refine ⟨⟨w, true⟩, ?_, sameCur_set hs⟩
        rw [hw]
        rfl
      · rename_i h1; rw [if_neg h1]; cases h; exact ⟨d, rfl, hc⟩
  | essential =>
    have h : applyEssential c x = .ok r := h
    show ∃ s, applyEssential d y = .ok s ∧ SameCur r s
    unfold applyEssential at h ⊢
    have e1 : y.asBool = x.asBool := by
      rcases hxy with rfl | ⟨e, n, n', xs, ys, rfl, rfl, _⟩ <;> rfl
    have e2 : (!d.v.isSlice && d.v.isZero) = (!c.v.isSlice && c.v.isZero) := by
      rcases hc.val with h | ⟨e, n, n', xs, ys, h, h', _⟩
      · rw [h]
      · rw [h, h']; rfl
    rw [hn, hnc, e1, e2]
    split at h
    · rename_i h1; rw [if_pos h1]; cases h; exact ⟨d, rfl, hc⟩
    · rename_i h1
      rw [if_neg h1]
      split at h
      · cases h
      · rename_i h2; rw [if_neg h2]; cases h; exact ⟨d, rfl, hc⟩

end Oidfed

namespace Oidfed
open Spec

/-- Entries with the same operators and the same operands up to the order of lists. -/
abbrev RelEntry (a b : Entry) : Prop := ∀ op, Option.Rel SameValue (AMap.get a op) (AMap.get b op)

theorem essential_rel {a b : Entry} (h : RelEntry a b) : b.essential = a.essential := by
  have h := h opEssential
  unfold Entry.essential
  generalize AMap.get a opEssential = x at h
  generalize AMap.get b opEssential = y at h
  cases h with
  | none => rfl
  | some h => rcases h with rfl | ⟨e, n, n', xs, ys, rfl, rfl, _⟩ <;> rfl

theorem applyStep_rel {a b : Entry} {c d r : Cur} {ess : Bool} {n : OpName} (h : RelEntry a b) (ho : ∀ s, AMap.get a "one_of" = some s → ∀ v ∈ s.elems, v.isSlice = false)
    (hc : SameCur c d) (hr : applyStep a ess c n = .ok r) : ∃ s, applyStep b ess d n = .ok s ∧ SameCur r s := by
  unfold applyStep at hr ⊢
  have h := h n
  cases ha : AMap.get a n with
  | none =>
    rw [ha] at h hr
    cases hb : AMap.get b n with
    | none => cases hr; exact ⟨d, rfl, hc⟩
    | some y => rw [hb] at h; cases h
  | some x =>
    rw [ha] at h hr
    cases hb : AMap.get b n with
    | none => rw [hb] at h; cases h
    | some y =>
      rw [hb] at h
      cases h with
      | some h =>
        simp only at hr ⊢
        cases hop : operators n with
        | none => rw [hop] at hr; cases hr
        | some o =>
          rw [hop] at hr
          refine op_relisted hc h ?_ hr
          rintro rfl
          have : n = "one_of" := by
            unfold operators opSubsetOf opOneOf opSupersetOf opAdd opValue opDefault opEssential at hop
            split at hop
            · cases hop
            · split at hop
              · assumption
              · (repeat' split at hop) <;> cases hop
          exact ho x (this ▸ ha)

theorem applyLoop_rel {a b : Entry} {ess : Bool} (h : RelEntry a b) (ho : ∀ s, AMap.get a "one_of" = some s → ∀ v ∈ s.elems, v.isSlice = false) :
    ∀ {ns : List OpName} {c d r : Cur}, SameCur c d → applyLoop a ess ns c = .ok r → ∃ s, applyLoop b ess ns d = .ok s ∧ SameCur r s := by
  intro ns
  induction ns with
  | nil => intro c d r hc hr; cases hr; exact ⟨d, rfl, hc⟩
  | cons n ns ih =>
    intro c d r hc hr
    rw [applyLoop] at hr
    obtain ⟨c', h1, h2⟩ := bind_ok hr
    obtain ⟨d', h3, hc'⟩ := applyStep_rel h ho hc h1
    obtain ⟨s, h4, hs⟩ := ih hc' h2
    refine ⟨s, ?_, hs⟩
    rw [applyLoop, h3]
    exact h4

theorem applyTo_rel {a b : Entry} (h : RelEntry a b) (ho : ∀ s, AMap.get a "one_of" = some s → ∀ v ∈ s.elems, v.isSlice = false) {v w : Val} {isSet : Bool}
    (hv : a.applyTo v isSet = .ok w) : ∃ w', b.applyTo v isSet = .ok w' ∧ SameValue w w' := by
  unfold Entry.applyTo Entry.applyCur at hv ⊢
  cases hl : applyLoop a a.essential operatorOrder ⟨v, isSet⟩ with
  | error e => rw [hl] at hv; cases hv
  | ok r =>
    rw [hl] at hv
    cases hv
    obtain ⟨s, hs, hc⟩ := applyLoop_rel h ho (SameCur.refl _) hl
    refine ⟨s.v, ?_, hc.val⟩
    rw [essential_rel h, hs]
    rfl

theorem sameValue_type {v w : Val} (h : SameValue v w) : w.ty? = v.ty? := by
  rcases h with rfl | ⟨e, n, n', xs, ys, rfl, rfl, _⟩ <;> rfl

theorem setField_rel {f f1 : Field} {v w : Val} (h : SameValue v w ∨ (f.name = "Scope" ∧ ∃ xs ys, SameSet xs ys ∧ v = .str (joinScope xs) ∧ w = .str (joinScope ys)))
    (hf : setField f v = .ok f1) : ∃ f2, setField f w = .ok f2 ∧ SameAttribute f1 f2 ∧ (f.ty = .obj → f2 = f1) := by
  have ht : w.ty? = v.ty? := by
    rcases h with h | ⟨_, xs, ys, _, rfl, rfl⟩
    · exact sameValue_type h
    · rfl
  unfold setField at hf ⊢
  rw [ht]
  cases hv : v.ty? with
  | none =>
    rw [hv] at hf
    cases hf
    exact ⟨_, rfl, ⟨rfl, rfl, rfl, .inl (.inl rfl)⟩, fun _ => rfl⟩
  | some t =>
    rw [hv] at hf
    simp only at hf ⊢
    split at hf
    · rename_i hc
      cases hf
      rw [if_pos hc]
      refine ⟨_, rfl, ⟨rfl, rfl, rfl, h⟩, fun ho => ?_⟩
      rw [hc, ho] at hv
      have : w = v := by
        rcases h with (h | ⟨e, n, n', xs, ys, rfl, rfl, _⟩) | ⟨_, xs, ys, _, rfl, rfl⟩
        · exact h
        · cases hv
        · cases hv
      rw [this]
    · cases hf

theorem applyField_rel {p q : Policy} (h : Relisted p q) (hf : FlatOneOf p) {ws : List String} {f f1 : Field} (hr : applyField p ws f = .ok f1) :
    ∃ f2, applyField q ws f = .ok f2 ∧ SameAttribute f1 f2 ∧ (f.ty = .obj → f2 = f1) := by
  unfold applyField at hr ⊢
  have h := h f.tag
  cases hp : AMap.get p f.tag with
  | none =>
    rw [hp] at h hr
    cases hq : AMap.get q f.tag with
    | none => cases hr; exact ⟨f, rfl, ⟨rfl, rfl, rfl, .inl (.inl rfl)⟩, fun _ => rfl⟩
    | some b => rw [hq] at h; cases h
  | some a =>
    rw [hp] at h hr
    cases hq : AMap.get q f.tag with
    | none => rw [hq] at h; cases h
    | some b =>
      rw [hq] at h
      cases h with
      | some h =>
        simp only at hr ⊢
        obtain ⟨v, hv, hr⟩ := bind_ok hr
        obtain ⟨w, hw, hs⟩ := applyTo_rel h (fun s hs => hf f.tag a s hp hs) hv
        have hj : SameValue (scopeJoin f.name v) (scopeJoin f.name w) ∨
            (f.name = "Scope" ∧ ∃ xs ys, SameSet xs ys ∧ scopeJoin f.name v = .str (joinScope xs) ∧ scopeJoin f.name w = .str (joinScope ys)) := by
          rcases hs with rfl | ⟨e, n, n', xs, ys, rfl, rfl, hxy⟩
          · exact .inl (.inl rfl)
          · cases e with
            | str =>
              by_cases hn : f.name = "Scope"
              · exact .inr ⟨hn, xs, ys, hxy, by simp [scopeJoin, hn], by simp [scopeJoin, hn]⟩
              · refine .inl (.inr ⟨.str, n, n', xs, ys, ?_, ?_, hxy⟩) <;> simp [scopeJoin, hn]
            | _ => exact .inl (.inr ⟨_, n, n', xs, ys, rfl, rfl, hxy⟩)
        obtain ⟨f2, h2, h3⟩ := setField_rel hj hr
        refine ⟨f2, ?_, h3⟩
        rw [hw]
        exact h2

theorem applyFields_rel {p q : Policy} (h : Relisted p q) (hf : FlatOneOf p) {ws : List String} : ∀ {fs r : List Field}, applyFields p ws fs = .ok r →
    ∃ s, applyFields q ws fs = .ok s ∧ Each SameAttribute r s ∧ ((∀ f ∈ fs, f.tag = "-" → f.ty = .obj) → extraMap s = extraMap r) := by
  intro fs
  induction fs with
  | nil => intro r hr; cases hr; exact ⟨[], rfl, .nil, fun _ => rfl⟩
  | cons f fs ih =>
    intro r hr
    rw [applyFields] at hr
    obtain ⟨f1, h1, hr⟩ := bind_ok hr
    obtain ⟨r1, h2, hr⟩ := bind_ok hr
    cases hr
    obtain ⟨f2, h3, h4, h5⟩ := applyField_rel h hf h1
    obtain ⟨s1, h6, h7, h8⟩ := ih h2
    refine ⟨f2 :: s1, ?_, .cons h4 h7, ?_⟩
    · rw [applyFields, h3]
      show (applyFields q ws fs >>= _) = _
      rw [h6]
      rfl
    · intro ht
      have htag : f1.tag = f.tag := by
        rcases applyField_ok h1 with ⟨_, rfl⟩ | ⟨_, _, _, _, _, h, _⟩
        · rfl
        · exact h
      unfold extraMap at h8 ⊢
      rw [List.find?_cons, List.find?_cons, h4.tag]
      cases hb : f1.tag == "-" with
      | true =>
        have : f.tag = "-" := by rw [← htag]; simpa using hb
        simp only
        rw [h5 (ht f List.mem_cons_self this)]
      | false => exact h8 fun g hg => ht g (List.mem_cons_of_mem _ hg)

end Oidfed

namespace Oidfed
open Spec

theorem sameValue_symm {v w : Val} (h : SameValue v w) : SameValue w v := by
  rcases h with rfl | ⟨e, n, n', xs, ys, rfl, rfl, h⟩
  · exact .inl rfl
  · exact .inr ⟨e, n', n, ys, xs, rfl, rfl, fun x => (h x).symm⟩

theorem optRel_symm {α : Type} {R : α → α → Prop} (hR : ∀ a b, R a b → R b a) {x y : Option α} (h : Option.Rel R x y) : Option.Rel R y x := by
  cases h with
  | none => exact .none
  | some h => exact .some (hR _ _ h)

theorem relisted_symm {p q : Policy} (h : Relisted p q) : Relisted q p := by
  intro k
  refine optRel_symm ?_ (h k)
  intro a b hab op
  exact optRel_symm (fun _ _ h => sameValue_symm h) (hab op)

theorem flatOneOf_rel {p q : Policy} (h : Relisted p q) (hf : FlatOneOf p) : FlatOneOf q := by
  intro k b t hb ht
  have hk := h k
  rw [hb] at hk
  cases ha : AMap.get p k with
  | none => rw [ha] at hk; cases hk
  | some a =>
    rw [ha] at hk
    cases hk with
    | some hk =>
      have ho := hk "one_of"
      rw [ht] at ho
      cases hs : AMap.get a "one_of" with
      | none => rw [hs] at ho; cases ho
      | some s =>
        rw [hs] at ho
        cases ho with
        | some ho =>
          have hfs := hf k a s ha hs
          rcases ho with rfl | ⟨e, n, n', xs, ys, rfl, rfl, hxy⟩
          · exact hfs
          · exact fun v hv => hfs v ((hxy v).mpr hv)

/-- What holds of the operands and is kept by merging holds of the combined operands. -/
theorem combineRest_keeps {Q : String → OpName → Val → Prop}
    (hQ : ∀ k op x y z, OrdOpt op (some x) → OrdOpt op (some y) → Q k op x → Q k op y → mo op (some x) (some y) = .ok (some z) → Q k op z) :
    ∀ {ps : List Policy} {out m : Policy}, (∀ p ∈ ps, OrdPolicy p) → OrdPolicy out → (∀ p ∈ ps, ∀ k op v, p.val k op = some v → Q k op v) →
      (∀ k op v, out.val k op = some v → Q k op v) → combineRest out ps = .ok m → OrdPolicy m ∧ ∀ k op v, m.val k op = some v → Q k op v := by
  intro ps
  induction ps with
  | nil => intro out m _ ho _ h hm; cases hm; exact ⟨ho, h⟩
  | cons p ps ih =>
    intro out m hps ho hq hout hm
    rw [combineRest] at hm
    obtain ⟨z, hz, hm⟩ := bind_ok hm
    have hp := hps p List.mem_cons_self
    refine ih (fun p hp => hps p (List.mem_cons_of_mem _ hp)) (combine_ord ho hp hz) (fun p hp => hq p (List.mem_cons_of_mem _ hp)) ?_ hm
    have hqp := hq p List.mem_cons_self
    intro k op v hv
    rcases combine_cases hz with ⟨_, rfl⟩ | ⟨_, rfl⟩ | ⟨hpe, hqe⟩
    · exact hout k op v hv
    · exact hqp k op v hv
    · have hmo := (combine_val ho.toKnownPolicy hpe hqe hz).1 k op
      rw [hv] at hmo
      cases hx : out.val k op with
      | none =>
        rw [hx] at hmo
        exact hqp k op v (Except.ok.inj hmo)
      | some x =>
        cases hy : p.val k op with
        | none =>
          rw [hx, hy] at hmo
          cases Except.ok.inj hmo
          exact hout k op _ hx
        | some y =>
          rw [hx, hy] at hmo
          exact hQ k op x y v (hx ▸ ho.ord k op) (hy ▸ hp.ord k op) (hout k op x hx) (hqp k op y hy) hmo

theorem operators_oneOf {o : Op} (h : operators "one_of" = some o) : o = .oneOf := by
  cases h; rfl

/-- The `one_of` of a combined policy has elements of one of the policies, and its `value` and `default` are stated by one of the policies. -/
theorem combineAll_origin {ps : List Policy} (hps : ∀ p ∈ ps, OrdPolicy p) (hf : ∀ p ∈ ps, FlatOneOf p) {m : Policy} (hm : combineAll ps = .ok m) :
    OrdPolicy m ∧ FlatOneOf m ∧ ∀ k op v, (op = "value" ∨ op = "default") → m.val k op = some v → ∃ p ∈ ps, p.val k op = some v := by
  rw [combineAll_rest hps] at hm
  have key := combineRest_keeps (Q := fun k op v => (op = "one_of" → ∀ x ∈ v.elems, x.isSlice = false) ∧ ((op = "value" ∨ op = "default") → ∃ p ∈ ps, p.val k op = some v))
    ?_ hps ordPolicy_nil ?_ (fun k op v h => by cases h) hm
  · refine ⟨key.1, fun k e s he hs => (key.2 k "one_of" s (by rw [val_some he]; exact hs)).1 rfl, fun k op v ho hv => (key.2 k op v hv).2 ho⟩
  · intro k op x y z ox oy hx hy hmo
    obtain ⟨o, w, ho, hw, hz⟩ := mo_some hmo
    cases hz
    obtain ⟨o1, h1, ox⟩ := ox x rfl
    obtain ⟨o2, h2, oy⟩ := oy y rfl
    rw [ho] at h1 h2
    cases h1
    cases h2
    constructor
    · rintro rfl
      cases operators_oneOf ho
      exact fun v hv => hx.1 rfl v ((op_ord ox oy hw).2 v hv)
    · rintro (rfl | rfl)
      · have : o = .value := by cases ho; rfl
        subst this
        obtain ⟨_, rfl⟩ := (mergeValue_iff ox oy).mp hw
        exact hx.2 (.inl rfl)
      · have : o = .default := by cases ho; rfl
        subst this
        rcases (mergeDefault_iff ox oy).mp hw with ⟨_, rfl⟩ | ⟨_, _, rfl⟩ | ⟨_, _, _, rfl⟩
        · exact hy.2 (.inr rfl)
        · exact hx.2 (.inr rfl)
        · exact hx.2 (.inr rfl)
  · intro p hp k op v hv
    refine ⟨?_, fun _ => ⟨p, hp, hv⟩⟩
    rintro rfl
    unfold Policy.val at hv
    cases he : AMap.get p k with
    | none => rw [he] at hv; cases hv
    | some e => rw [he] at hv; exact hf p hp k e v he hv

theorem sameVal_kind {x y : Val} (h : SameVal x y) (hk : x ≠ .nil → y ≠ .nil → ((∃ n xs, x = .slice .any n xs) ∧ ∃ n ys, y = .slice .any n ys) ∨ (x.isSlice = false ∧ y.isSlice = false)) :
    SameValue x y := by
  by_cases hx : x = .nil
  · left; rw [hx]; exact h.1.mp hx
  · have hy : y ≠ .nil := fun e => hx (h.1.mpr e)
    rcases hk hx hy with ⟨⟨n, xs, rfl⟩, m, ys, rfl⟩ | ⟨h1, h2⟩
    · exact .inr ⟨_, _, _, _, _, rfl, rfl, h.2⟩
    · left
      have e1 : x.elems = [x] := by cases x <;> first | rfl | exact absurd rfl hx | cases h1
      have e2 : y.elems = [y] := by cases y <;> first | rfl | exact absurd rfl hy | cases h2
      have := (h.2 y).mpr (by rw [e2]; exact List.mem_cons_self)
      rw [e1] at this
      simpa using this

end Oidfed
