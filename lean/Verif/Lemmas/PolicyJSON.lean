import Verif.Lemmas.MetadataApply
import Verif.Lemmas.Merge
import Verif.Lemmas.Slices
/-! What can come out of policies whose values were read from JSON. -/

namespace Oidfed

/-- A slice whose elements have the element type; a nil slice has no elements. -/
def WellTyped (v : Val) : Prop := ∀ e n xs, v = .slice e n xs → (n = true → xs = []) ∧ ∀ x ∈ xs, fitsElem e x = true

/-- A value of a type JSON is read to. -/
def JSONVal (v : Val) : Prop := v.ty? ≠ some .int ∧ v.ty? ≠ some .ptr ∧ WellTyped v

theorem wellTyped_slc {s : Slc} : WellTyped s.toVal ↔ (s.isNil = true → s.xs = []) ∧ ∀ x ∈ s.xs, fitsElem s.e x = true := by
  constructor
  · intro h; exact h _ _ _ rfl
  · rintro h e n xs hv
    cases hv
    exact h

theorem slicify_typed {v : Val} {s : Slc} (h : WellTyped v) (hs : slicify v = some s) : WellTyped s.toVal := by
  cases v with
  | nil => cases hs
  | slice e n xs => cases hs; exact h
  | _ => cases hs; rw [wellTyped_slc]; simp [fitsElem]

theorem castSlc_typed {s t : Slc} {o : Option Slc} (h : castSlc s o = .ok t) : WellTyped t.toVal := by
  unfold castSlc at h
  cases o with
  | none => cases h
  | some u =>
    dsimp only at h
    split at h
    · rename_i ha
      cases h
      rw [wellTyped_slc]
      refine ⟨by simp, ?_⟩
      intro x hx
      have := List.all_eq_true.mp ha x hx
      simp only [Bool.and_eq_true] at this
      exact this.1
    · cases h

theorem unionSlc_typed {a b : Option Slc} {r : Slc} (ha : ∀ s, a = some s → WellTyped s.toVal) (hb : ∀ s, b = some s → WellTyped s.toVal)
    (h : unionSlc a b = .ok r) : WellTyped r.toVal := by
  unfold unionSlc at h
  cases b with
  | none => cases a <;> cases h
  | some b =>
    cases a with
    | none => cases h
    | some a =>
      dsimp only at h
      split at h
      · cases h; exact ha _ rfl
      · obtain ⟨b', hb', h⟩ := bind_ok h
        have hwb : WellTyped b'.toVal ∧ (a.xs.isEmpty = false → b'.e = a.e) := by
          split at hb'
          · refine ⟨castSlc_typed hb', fun _ => ?_⟩
            unfold castSlc at hb'
            dsimp only at hb'
            split at hb'
            · cases hb'; rfl
            · cases hb'
          · rename_i hc
            cases hb'
            refine ⟨hb _ rfl, fun _ => ?_⟩
            simp only [Bool.or_eq_true, bne_iff_ne, ne_eq, not_or, Decidable.not_not] at hc
            exact hc.2.symm
        split at h
        · cases h; exact hwb.1
        · rename_i hae
          cases h
          rw [wellTyped_slc]
          refine ⟨by simp, ?_⟩
          intro x hx
          rcases (unionLoop_mem _ _ _).mp hx with hx | hx
          · exact (wellTyped_slc.mp (ha _ rfl)).2 x hx
          · rw [← hwb.2 (by simpa using hae)]
            exact (wellTyped_slc.mp hwb.1).2 x hx

theorem intersectSlc_typed {a b : Option Slc} {r : Slc} (ha : ∀ s, a = some s → WellTyped s.toVal) (h : intersectSlc a b = .ok r) : WellTyped r.toVal := by
  unfold intersectSlc at h
  cases a with
  | none => cases h
  | some a =>
    cases b with
    | none => cases h
    | some b =>
      dsimp only at h
      obtain ⟨b', _, h⟩ := bind_ok h
      cases h
      rw [wellTyped_slc]
      refine ⟨by simp, ?_⟩
      intro x hx
      exact (wellTyped_slc.mp (ha _ rfl)).2 x (List.mem_filter.mp hx).1

theorem fromJSON_slc {s : Slc} (h : WellTyped s.toVal) : JSONVal s.toVal := ⟨by simp [Slc.toVal, Val.ty?], by simp [Slc.toVal, Val.ty?], h⟩

theorem map_ok' {α β : Type} {f : α → β} {x : Res α} {b : β} (h : x.map f = .ok b) : ∃ a, x = .ok a ∧ b = f a := by
  cases x with
  | error e => cases h
  | ok a => cases h; exact ⟨a, rfl, rfl⟩

theorem union_fromJSON {a b c : Val} (ha : WellTyped a) (hb : WellTyped b) (h : reflectUnion a b = .ok c) : JSONVal c := by
  obtain ⟨s, hs, rfl⟩ := map_ok' h
  exact fromJSON_slc (unionSlc_typed (fun _ h => slicify_typed ha h) (fun _ h => slicify_typed hb h) hs)

theorem intersect_fromJSON {a b c : Val} (ha : WellTyped a) (h : reflectIntersect a b = .ok c) : JSONVal c := by
  obtain ⟨s, hs, rfl⟩ := map_ok' h
  exact fromJSON_slc (intersectSlc_typed (fun _ h => slicify_typed ha h) hs)

theorem cast_fromJSON {p r : Val} {o : Option Slc} (hp : JSONVal p) (h : reflectSliceCast p o = .ok r) : JSONVal r := by
  cases p with
  | slice e n xs =>
    obtain ⟨s, hs, rfl⟩ := map_ok' h
    exact fromJSON_slc (castSlc_typed hs)
  | _ => cases h; exact hp

theorem merge_fromJSON {o : Op} {a b c : Val} (ha : JSONVal a) (hb : JSONVal b) (h : o.merge a b = .ok c) : JSONVal c := by
  have hu : ∀ c, mergeUnion a b = .ok c → JSONVal c := by
    intro c h
    unfold mergeUnion at h
    split at h
    · cases h; exact hb
    · split at h
      · cases h; exact ha
      · exact union_fromJSON ha.2.2 hb.2.2 h
  have hi : ∀ c, mergeIntersect a b = .ok c → JSONVal c := by
    intro c h
    unfold mergeIntersect at h
    split at h
    · cases h; exact hb
    · split at h
      · cases h; exact ha
      · exact intersect_fromJSON ha.2.2 h
  cases o with
  | subsetOf => exact hi _ h
  | oneOf => exact hi _ h
  | supersetOf => exact hu _ h
  | add => exact hu _ h
  | value =>
    change mergeValue a b = _ at h
    unfold mergeValue at h
    split at h
    · cases h; exact ha
    · cases h
  | default =>
    change mergeDefault a b = _ at h
    unfold mergeDefault at h
    split at h
    · cases h; exact hb
    · split at h
      · cases h; exact ha
      · split at h
        · cases h; exact ha
        · cases h
  | essential =>
    have : ∃ x, c = .bool x := by
      change mergeEssential a b = _ at h
      unfold mergeEssential at h
      split at h <;> cases h <;> exact ⟨_, rfl⟩
    obtain ⟨x, rfl⟩ := this
    exact ⟨by simp [Val.ty?], by simp [Val.ty?], by intro e n xs h; cases h⟩

/-- All values of the entry were read from JSON. -/
def JSONVals (e : Entry) : Prop := ∀ kv ∈ e, JSONVal kv.2

/-- All values of the policy were read from JSON. -/
def JSONEntries (p : Policy) : Prop := ∀ ke ∈ p, JSONVals ke.2

theorem mergeLoop_fromJSON {b : Entry} (hb : JSONVals b) : ∀ {a out : Entry} {r : Option Entry}, JSONVals a → JSONVals out → mergeLoop b a out = .ok r →
    ∀ m, r = some m → JSONVals m := by
  intro a
  induction a with
  | nil => intro out r _ ho h m hm; cases h; cases hm; exact ho
  | cons kv a ih =>
    obtain ⟨op, av⟩ := kv
    intro out r ha ho h
    have ha' : JSONVals a := fun x hx => ha x (List.mem_cons_of_mem _ hx)
    have hav : JSONVal av := ha (op, av) (by simp)
    have hadd : ∀ v, JSONVal v → JSONVals (out ++ [(op, v)]) := by
      intro v hv kv hkv
      rcases List.mem_append.mp hkv with hkv | hkv
      · exact ho kv hkv
      · rw [List.mem_singleton.mp hkv]; exact hv
    rw [mergeLoop] at h
    cases hg : b.get op with
    | none =>
      rw [hg] at h
      exact ih ha' (hadd _ hav) h
    | some bv =>
      rw [hg] at h
      dsimp only at h
      cases hop : operators op with
      | none => rw [hop] at h; cases h; intro m hm; cases hm
      | some o =>
        rw [hop] at h
        dsimp only at h
        obtain ⟨c, hc, h⟩ := bind_ok h
        exact ih ha' (hadd _ (merge_fromJSON hav (hb _ (get_mem hg)) hc)) h

theorem mergeEntries_fromJSON {a b m : Entry} (ha : JSONVals a) (hb : JSONVals b) (h : mergeEntries a b = .ok m) : JSONVals m := by
  unfold mergeEntries at h
  obtain ⟨r, hr, h⟩ := bind_ok h
  cases r with
  | none => cases h; intro kv hkv; cases hkv
  | some out =>
    cases h
    intro kv hkv
    rcases List.mem_append.mp hkv with hkv | hkv
    · exact mergeLoop_fromJSON hb ha (by intro kv hkv; cases hkv) hr out rfl kv hkv
    · exact hb kv (List.mem_filter.mp hkv).1

theorem combineLoop_fromJSON {sub : Policy} (hs : JSONEntries sub) : ∀ {par out m : Policy}, JSONEntries par → JSONEntries out → combineLoop sub par out = .ok m →
    JSONEntries m := by
  intro par
  induction par with
  | nil => intro out m _ ho h; cases h; exact ho
  | cons ke par ih =>
    obtain ⟨k, pv⟩ := ke
    intro out m hp ho h
    have hp' : JSONEntries par := fun x hx => hp x (List.mem_cons_of_mem _ hx)
    have hpv : JSONVals pv := hp (k, pv) (by simp)
    have hadd : ∀ e, JSONVals e → JSONEntries (out ++ [(k, e)]) := by
      intro e he ke hke
      rcases List.mem_append.mp hke with hke | hke
      · exact ho ke hke
      · rw [List.mem_singleton.mp hke]; exact he
    rw [combineLoop] at h
    cases hg : AMap.get sub k with
    | none =>
      rw [hg] at h
      exact ih hp' (hadd _ hpv) h
    | some sv =>
      rw [hg] at h
      dsimp only at h
      obtain ⟨c, hc, h⟩ := bind_ok h
      exact ih hp' (hadd _ (mergeEntries_fromJSON hpv (hs _ (get_mem hg)) hc)) h

theorem combinePolicy_fromJSON {par sub m : Policy} (hp : JSONEntries par) (hs : JSONEntries sub) (h : combinePolicy par sub = .ok m) : JSONEntries m := by
  unfold combinePolicy at h
  split at h
  · cases h; exact hp
  · split at h
    · cases h; exact hs
    · obtain ⟨out, ho, h⟩ := bind_ok h
      obtain ⟨_, _, h⟩ := bind_ok h
      cases h
      intro ke hke
      rcases List.mem_append.mp hke with hke | hke
      · exact combineLoop_fromJSON hs hp (by intro ke hke; cases hke) ho ke hke
      · exact hs ke (List.mem_filter.mp hke).1

theorem combineRest_fromJSON : ∀ {ps : List Policy} {out m : Policy}, JSONEntries out → (∀ p ∈ ps, JSONEntries p) → combineRest out ps = .ok m → JSONEntries m := by
  intro ps
  induction ps with
  | nil => intro out m ho _ h; cases h; exact ho
  | cons p ps ih =>
    intro out m ho hps h
    rw [combineRest] at h
    obtain ⟨c, hc, h⟩ := bind_ok h
    exact ih (combinePolicy_fromJSON ho (hps p (by simp)) hc) (fun q hq => hps q (List.mem_cons_of_mem _ hq)) h

theorem combineAll_fromJSON {ps : List Policy} {m : Policy} (hps : ∀ p ∈ ps, JSONEntries p) (h : combineAll ps = .ok m) : JSONEntries m := by
  cases ps with
  | nil => cases h; intro ke hke; cases hke
  | cons p ps =>
    rw [combineAll] at h
    obtain ⟨_, _, h⟩ := bind_ok h
    exact combineRest_fromJSON (hps p (by simp)) (fun q hq => hps q (List.mem_cons_of_mem _ hq)) h

/-! ## Applying -/

/-- The current value when such an entry is applied to `x`: well-typed, and of the type of an integer or a pointer only if it is `x`. -/
def Derived (x v : Val) : Prop := WellTyped v ∧ (v.ty? = some .int ∨ v.ty? = some .ptr → v = x)

theorem derived_fromJSON {x v : Val} (h : JSONVal v) : Derived x v := ⟨h.2.2, fun ht => by rcases ht with ht | ht; exact absurd ht h.1; exact absurd ht h.2.1⟩

theorem applyOp_derived {x : Val} {o : Op} {c c' : Cur} {p : Val} {ess : Bool} (hp : JSONVal p) (hc : Derived x c.v) (h : o.apply c p ess = .ok c') :
    Derived x c'.v := by
  cases o with
  | subsetOf =>
    change applySubsetOf c p ess = _ at h
    unfold applySubsetOf at h
    split at h
    · cases h; exact hc
    · split at h
      · cases h; exact hc
      · split at h
        · cases h
        · obtain ⟨r, hr, h⟩ := bind_ok h
          cases h
          exact derived_fromJSON (fromJSON_slc (intersectSlc_typed (fun _ hs => slicify_typed hc.1 hs) hr))
  | oneOf =>
    change applyOneOf c p ess = _ at h
    unfold applyOneOf at h
    split at h
    · cases h; exact hc
    · split at h
      · cases h; exact hc
      · split at h
        · cases h
        · split at h
          · cases h
          · cases h; exact hc
  | supersetOf =>
    change applySupersetOf c p ess = _ at h
    unfold applySupersetOf at h
    split at h
    · cases h; exact hc
    · split at h
      · cases h; exact hc
      · split at h
        · cases h
        · obtain ⟨r, hr, h⟩ := bind_ok h
          split at h
          · cases h
          · cases h; exact hc
  | add =>
    change applyAdd c p = _ at h
    unfold applyAdd at h
    split at h
    · cases h; exact derived_fromJSON hp
    · split at h
      · cases h; exact hc
      · obtain ⟨r, hr, h⟩ := bind_ok h
        cases h
        exact derived_fromJSON (union_fromJSON hc.1 hp.2.2 hr)
  | value =>
    change applyValue c p = _ at h
    unfold applyValue at h
    split at h
    · cases h; exact derived_fromJSON ⟨by simp [Val.ty?], by simp [Val.ty?], by intro e n xs h; cases h⟩
    · obtain ⟨r, hr, h⟩ := bind_ok h
      cases h
      exact derived_fromJSON (cast_fromJSON hp hr)
  | default =>
    change applyDefault c p = _ at h
    unfold applyDefault at h
    split at h
    · obtain ⟨r, hr, h⟩ := bind_ok h
      cases h
      exact derived_fromJSON (cast_fromJSON hp hr)
    · cases h; exact hc
  | essential =>
    change applyEssential c p = _ at h
    unfold applyEssential at h
    split at h
    · cases h; exact hc
    · split at h
      · cases h
      · cases h; exact hc

theorem applyLoop_derived {x : Val} {p : Entry} {ess : Bool} (hp : JSONVals p) : ∀ {ns : List OpName} {c c' : Cur}, Derived x c.v → applyLoop p ess ns c = .ok c' →
    Derived x c'.v := by
  intro ns
  induction ns with
  | nil => intro c c' hc h; cases h; exact hc
  | cons n ns ih =>
    intro c c' hc h
    rw [applyLoop] at h
    obtain ⟨d, hd, h⟩ := bind_ok h
    refine ih ?_ h
    unfold applyStep at hd
    cases hg : p.get n with
    | none => rw [hg] at hd; cases hd; exact hc
    | some pv =>
      rw [hg] at hd
      dsimp only at hd
      cases ho : operators n with
      | none => rw [ho] at hd; cases hd
      | some o =>
        rw [ho] at hd
        exact applyOp_derived (hp _ (get_mem hg)) hc hd

/-- A value that results from such policy values. -/
theorem applyTo_derived {p : Entry} {x v : Val} {isSet : Bool} (hp : JSONVals p) (hx : WellTyped x) (h : Entry.applyTo p x isSet = .ok v) : Derived x v := by
  obtain ⟨c, hc, rfl⟩ := map_ok' h
  exact applyLoop_derived hp ⟨hx, fun _ => rfl⟩ hc

end Oidfed
