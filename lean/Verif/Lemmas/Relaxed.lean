import Verif.Spec.Relaxed
import Verif.Lemmas.AnyOrderPolicy
import Verif.Props.RelistedChain
/-!
# Dropping and relaxing checks
-/

namespace Oidfed
open Spec

/-- A check leaves the value as it is. -/
theorem check_same {o : Op} (ho : o = .oneOf ∨ o = .supersetOf ∨ o = .essential) {c r : Cur} {v : Val} {ess : Bool} (h : o.apply c v ess = .ok r) : r = c := by
  rcases ho with rfl | rfl | rfl
  · unfold Op.apply applyOneOf at h
    dsimp only at h
    repeat' split at h
    all_goals cases h
    all_goals rfl
  · unfold Op.apply applySupersetOf at h
    dsimp only at h
    split at h
    · cases h; rfl
    · split at h
      · cases h; rfl
      · split at h
        · cases h
        · obtain ⟨b, _, h⟩ := bind_ok h
          split at h
          · cases h
          · cases h; rfl
  · unfold Op.apply applyEssential at h
    dsimp only at h
    repeat' split at h
    all_goals cases h
    all_goals rfl

/-- What is accepted where an attribute is essential is accepted where it is not. -/
theorem apply_ess {o : Op} {c r : Cur} {v : Val} {ess ess' : Bool} (he : ess' = true → ess = true) (h : o.apply c v ess = .ok r) : o.apply c v ess' = .ok r := by
  cases ess' with
  | true => rw [he rfl] at h; exact h
  | false =>
    cases ess with
    | false => exact h
    | true =>
      obtain ⟨w, set⟩ := c
      cases set with
      | true => cases o <;> exact h
      | false =>
        cases o with
        | oneOf =>
          have := check_same (.inl rfl) h
          subst this
          rfl
        | supersetOf =>
          have := check_same (.inr (.inl rfl)) h
          subst this
          rfl
        | subsetOf =>
          unfold Op.apply applySubsetOf at h ⊢
          dsimp only at h ⊢
          simp only [Bool.not_false, Bool.not_true, Bool.and_false, Bool.and_self, if_true] at h ⊢
          split at h
          · rename_i hn; cases hn
          · split at h
            · exact h
            · cases h
        | _ => exact h

theorem contains_more {x : Val} {v v' : Val} (h : ∀ y ∈ v.elems, y ∈ v'.elems) (hc : sliceContains x (slicify v) = true) : sliceContains x (slicify v') = true := by
  have key : ∀ w : Val, sliceContains x (slicify w) = true ↔ x ∈ w.elems := by
    intro w
    cases w <;> simp [sliceContains, slicify, Val.elems]
  rw [key] at hc ⊢
  exact h x hc

theorem oneOf_relaxed {c r : Cur} {v v' : Val} {ess ess' : Bool} (he : ess' = true → ess = true) (hn : v ≠ .nil) (h : ∀ y ∈ v.elems, y ∈ v'.elems)
    (hr : Op.oneOf.apply c v ess = .ok r) : Op.oneOf.apply c v' ess' = .ok r := by
  have hc := check_same (.inl rfl) hr
  subst hc
  have hr := apply_ess he hr
  unfold Op.apply applyOneOf at hr ⊢
  dsimp only at hr ⊢
  split at hr
  · rename_i h1; rw [if_pos h1]
  · rename_i h1
    rw [if_neg h1]
    have hnn : v.isNilIface = false := by cases v <;> first | rfl | exact absurd rfl hn
    rw [hnn] at hr
    split
    · rfl
    · split at hr
      · rename_i h2; cases h2
      · split at hr
        · cases hr
        · rename_i h3
          rw [if_neg h3]
          split at hr
          · cases hr
          · rename_i h4
            rw [if_neg ?_]
            have : sliceContains r.v (slicify v) = true := by simpa using h4
            simp [contains_more h this]

theorem superset_relaxed {c r : Cur} {v v' : Val} {ess ess' : Bool} (he : ess' = true → ess = true) (hn : v ≠ .nil) (hn' : v' ≠ .nil) (h : ∀ y ∈ v'.elems, y ∈ v.elems)
    (hr : Op.supersetOf.apply c v ess = .ok r) : Op.supersetOf.apply c v' ess' = .ok r := by
  have hc := check_same (.inr (.inl rfl)) hr
  subst hc
  have hr := apply_ess he hr
  have nn : ∀ w : Val, w ≠ .nil → w.isNilIface = false := by intro w hw; cases w <;> first | rfl | exact absurd rfl hw
  have sub : ∀ w x : Val, w ≠ .nil → reflectIsSupersetOf x w = .ok (w.elems.all fun y => sliceContains y (slicify x)) := by
    intro w x hw
    cases w <;> first | rfl | exact absurd rfl hw
  unfold Op.apply applySupersetOf at hr ⊢
  dsimp only at hr ⊢
  split at hr
  · rename_i h1; rw [if_pos h1]
  · rename_i h1
    rw [if_neg h1, nn v' hn']
    rw [nn v hn] at hr
    split at hr
    · rename_i h2; cases h2
    · rename_i h2
      rw [if_neg h2]
      split at hr
      · cases hr
      · rename_i h3
        rw [if_neg h3]
        rw [sub v _ hn] at hr
        rw [sub v' _ hn']
        have hr : (if !(v.elems.all fun y => sliceContains y (slicify r.v)) then Except.error Fail.error else Except.ok r) = .ok r := hr
        show (if !(v'.elems.all fun y => sliceContains y (slicify r.v)) then Except.error Fail.error else Except.ok r) = .ok r
        split at hr
        · cases hr
        · rename_i h4
          have h4 : (v.elems.all fun y => sliceContains y (slicify r.v)) = true := by simpa using h4
          rw [List.all_eq_true] at h4
          have h5 : (v'.elems.all fun y => sliceContains y (slicify r.v)) = true := List.all_eq_true.mpr fun y hy => h4 y (h y hy)
          rw [h5]
          rfl

theorem check_op {n : OpName} (h : n ∈ checks) : ∃ o, operators n = some o ∧ (o = .oneOf ∨ o = .supersetOf ∨ o = .essential) := by
  simp only [checks, List.mem_cons, List.not_mem_nil, or_false] at h
  rcases h with rfl | rfl | rfl
  · exact ⟨.oneOf, rfl, .inl rfl⟩
  · exact ⟨.supersetOf, rfl, .inr (.inl rfl)⟩
  · exact ⟨.essential, rfl, .inr (.inr rfl)⟩

theorem applyStep_relaxed {e' e : Entry} (h : ∀ op, RelaxedOp op (AMap.get e' op) (AMap.get e op)) {ess' ess : Bool} (he : ess' = true → ess = true) {c r : Cur} {n : OpName}
    (hr : applyStep e ess c n = .ok r) : applyStep e' ess' c n = .ok r := by
  unfold applyStep at hr ⊢
  rcases h n with h | ⟨hc, h⟩ | ⟨rfl, v', v, h, hx, hn, hs⟩ | ⟨rfl, v', v, h, hx, hn, hn', hs⟩ | ⟨rfl, h, hx⟩
  · rw [h]
    cases hg : AMap.get e n with
    | none => rw [hg] at hr; exact hr
    | some v =>
      rw [hg] at hr
      cases ho : operators n with
      | none => rw [ho] at hr; cases hr
      | some o =>
        rw [ho] at hr
        exact apply_ess he hr
  · rw [h]
    obtain ⟨o, ho, hc⟩ := check_op hc
    cases hg : AMap.get e n with
    | none => rw [hg] at hr; exact hr
    | some v =>
      rw [hg, ho] at hr
      rw [check_same hc hr]
  · rw [h]
    rw [hx] at hr
    exact oneOf_relaxed he hn hs hr
  · rw [h]
    rw [hx] at hr
    exact superset_relaxed he hn hn' hs hr
  · rw [h]
    cases hg : AMap.get e "essential" with
    | none => exact absurd hg hx
    | some v =>
      rw [hg] at hr
      have hr : Op.essential.apply c v ess = .ok r := hr
      rw [check_same (.inr (.inr rfl)) hr]
      rfl

theorem essential_relaxed {e' e : Entry} (h : ∀ op, RelaxedOp op (AMap.get e' op) (AMap.get e op)) : e'.essential = true → e.essential = true := by
  unfold Entry.essential
  rcases h opEssential with h | ⟨_, h⟩ | ⟨h, _⟩ | ⟨h, _⟩ | ⟨_, h, _⟩
  · rw [h]; exact id
  · rw [h]; exact fun h => by cases h
  · exact absurd h (by decide)
  · exact absurd h (by decide)
  · rw [h]; exact fun h => by cases h

theorem applyLoop_relaxed {e' e : Entry} (h : ∀ op, RelaxedOp op (AMap.get e' op) (AMap.get e op)) {ess' ess : Bool} (he : ess' = true → ess = true) :
    ∀ {ns : List OpName} {c r : Cur}, applyLoop e ess ns c = .ok r → applyLoop e' ess' ns c = .ok r := by
  intro ns
  induction ns with
  | nil => intro c r hr; exact hr
  | cons n ns ih =>
    intro c r hr
    rw [applyLoop] at hr ⊢
    obtain ⟨d, hd, hr⟩ := bind_ok hr
    rw [applyStep_relaxed h he hd]
    exact ih hr

theorem applyTo_relaxed {e' e : Entry} (h : ∀ op, RelaxedOp op (AMap.get e' op) (AMap.get e op)) {v w : Val} {set : Bool} (hr : e.applyTo v set = .ok w) : e'.applyTo v set = .ok w := by
  unfold Entry.applyTo Entry.applyCur at hr ⊢
  cases hl : applyLoop e e.essential operatorOrder ⟨v, set⟩ with
  | error _ => rw [hl] at hr; cases hr
  | ok r =>
    rw [hl] at hr
    rw [applyLoop_relaxed h (essential_relaxed h) hl]
    exact hr

theorem applyTo_nil (v : Val) (set : Bool) : Entry.applyTo [] v set = .ok v := rfl

/-- For a field with a value of its type, no entry is like an empty one. -/
theorem applyField_entry {f : Field} (hf : FieldOk f) (p : Policy) (ws : List String) :
    applyField p ws f = (Entry.applyTo ((AMap.get p f.tag).getD []) f.val (ws.contains f.name) >>= fun v => setField f (scopeJoin f.name v)) := by
  unfold applyField
  cases AMap.get p f.tag with
  | some e => rfl
  | none =>
    show Except.ok f = setField f (scopeJoin f.name f.val)
    have hj : scopeJoin f.name f.val = f.val := by
      unfold scopeJoin
      split
      · rename_i n xs hv
        split
        · rename_i hn
          have h1 := hf.1
          rw [hv, hf.2.1 hn] at h1
          cases h1
        · rfl
      · rfl
    rw [hj]
    unfold setField
    rw [hf.1]
    simp

theorem operand_getD (p : Policy) (k : String) (op : OpName) : operand p k op = AMap.get ((AMap.get p k).getD []) op := by
  unfold operand
  cases AMap.get p k <;> rfl

theorem applyField_relaxed {p' p : Policy} (h : RelaxedPolicy p' p) {ws : List String} {f g : Field} (hf : FieldOk f) (hr : applyField p ws f = .ok g) : applyField p' ws f = .ok g := by
  rw [applyField_entry hf] at hr ⊢
  obtain ⟨v, hv, hr⟩ := bind_ok hr
  have he : ∀ op, RelaxedOp op (AMap.get ((AMap.get p' f.tag).getD []) op) (AMap.get ((AMap.get p f.tag).getD []) op) := by
    intro op
    rw [← operand_getD, ← operand_getD]
    exact h f.tag op
  rw [applyTo_relaxed he hv]
  exact hr

theorem applyFields_relaxed {p' p : Policy} (h : RelaxedPolicy p' p) {ws : List String} :
    ∀ {fs gs : List Field}, (∀ f ∈ fs, FieldOk f) → applyFields p ws fs = .ok gs → applyFields p' ws fs = .ok gs := by
  intro fs
  induction fs with
  | nil => intro gs _ hr; exact hr
  | cons f fs ih =>
    intro gs hf hr
    rw [applyFields] at hr ⊢
    obtain ⟨g, h1, hr⟩ := bind_ok hr
    obtain ⟨gs1, h2, hr⟩ := bind_ok hr
    rw [applyField_relaxed h (hf f List.mem_cons_self) h1]
    show (applyFields p' ws fs >>= _) = _
    rw [ih (fun f h => hf f (List.mem_cons_of_mem _ h)) h2]
    exact hr

/-! ## Combining -/

/-- What an operand of `one_of` allows, and one of `superset_of` demands. -/
def allows (x : Option Val) (a : Val) : Prop := ∀ v, x = some v → a ∈ v.elems
def demands (x : Option Val) (a : Val) : Prop := ∃ v, x = some v ∧ a ∈ v.elems

theorem ord_oneOf {x : Val} (h : OrdOpt "one_of" (some x)) : ∃ n xs, x = .slice .any n xs := by
  obtain ⟨o, ho, h⟩ := h x rfl
  cases ho
  exact h

theorem ord_superset {x : Val} (h : OrdOpt "superset_of" (some x)) : ∃ n xs, x = .slice .any n xs := by
  obtain ⟨o, ho, h⟩ := h x rfl
  cases ho
  exact h

theorem ord_essential {x : Val} (h : OrdOpt "essential" (some x)) : ∃ b, x = .bool b := by
  obtain ⟨o, ho, h⟩ := h x rfl
  cases ho
  exact h

theorem mo_oneOf {x y : Option Val} (hx : OrdOpt "one_of" x) (hy : OrdOpt "one_of" y) :
    ∃ z, mo "one_of" x y = .ok z ∧ (z = none ↔ x = none ∧ y = none) ∧ ∀ a, allows z a ↔ allows x a ∧ allows y a := by
  cases x with
  | none => exact ⟨y, rfl, by simp, by simp [allows]⟩
  | some x =>
    cases y with
    | none => exact ⟨some x, rfl, by simp, by simp [allows]⟩
    | some y =>
      have h1 := ord_oneOf hx
      have h2 := ord_oneOf hy
      obtain ⟨z, hz, _, _, he⟩ := mergeIntersect_plain (.inr h1) (.inr h2)
      refine ⟨some z, ?_, by simp, fun a => ?_⟩
      · show Except.map some (mergeIntersect x y) = _
        rw [hz]
        rfl
      · have := he a
        have n1 := ord_nonnil h1
        have n2 := ord_nonnil h2
        simpa [allows, n1, n2] using this

theorem mo_superset {x y : Option Val} (hx : OrdOpt "superset_of" x) (hy : OrdOpt "superset_of" y) :
    ∃ z, mo "superset_of" x y = .ok z ∧ (z = none ↔ x = none ∧ y = none) ∧ ∀ a, demands z a ↔ demands x a ∨ demands y a := by
  cases x with
  | none => exact ⟨y, rfl, by simp, by simp [demands]⟩
  | some x =>
    cases y with
    | none => exact ⟨some x, rfl, by simp, by simp [demands]⟩
    | some y =>
      obtain ⟨z, hz, _, _, he⟩ := mergeUnion_plain (.inr (ord_superset hx)) (.inr (ord_superset hy))
      refine ⟨some z, ?_, by simp, fun a => ?_⟩
      · show Except.map some (mergeUnion x y) = _
        rw [hz]
        rfl
      · simpa [demands] using he a

theorem mo_essential {x y : Option Val} (hx : OrdOpt "essential" x) (hy : OrdOpt "essential" y) :
    ∃ z, mo "essential" x y = .ok z ∧ (z = none ↔ x = none ∧ y = none) ∧ (z = some (.bool true) ↔ x = some (.bool true) ∨ y = some (.bool true)) := by
  cases x with
  | none => exact ⟨y, rfl, by simp, by simp⟩
  | some x =>
    cases y with
    | none => exact ⟨some x, rfl, by simp, by simp⟩
    | some y =>
      obtain ⟨a, rfl⟩ := ord_essential hx
      obtain ⟨b, rfl⟩ := ord_essential hy
      refine ⟨some (.bool (a || b)), rfl, by simp, ?_⟩
      cases a <;> cases b <;> simp

theorem relaxed_oneOf {x' x : Option Val} (hx : OrdOpt "one_of" x) : RelaxedOp "one_of" x' x ↔ (x = none → x' = none) ∧ ∀ a, allows x a → allows x' a := by
  constructor
  · rintro (rfl | ⟨_, rfl⟩ | ⟨_, v', v, rfl, rfl, _, hs⟩ | ⟨h, _⟩ | ⟨h, _⟩)
    · exact ⟨id, fun _ => id⟩
    · exact ⟨fun _ => rfl, fun a _ v h => (by cases h)⟩
    · refine ⟨fun h => (by cases h), fun a ha w hw => ?_⟩
      cases hw
      exact hs a (ha v rfl)
    · exact absurd h (by decide)
    · exact absurd h (by decide)
  · rintro ⟨h1, h2⟩
    cases x' with
    | none => exact .inr (.inl ⟨by simp [checks], rfl⟩)
    | some v' =>
      cases x with
      | none => cases h1 rfl
      | some v => exact .inr (.inr (.inl ⟨rfl, v', v, rfl, rfl, ord_nonnil (ord_oneOf hx), fun y hy => h2 y (fun w hw => by cases hw; exact hy) v' rfl⟩))

theorem relaxed_superset {x' x : Option Val} (hx : OrdOpt "superset_of" x) (hx' : OrdOpt "superset_of" x') :
    RelaxedOp "superset_of" x' x ↔ (x = none → x' = none) ∧ ∀ a, demands x' a → demands x a := by
  constructor
  · rintro (rfl | ⟨_, rfl⟩ | ⟨h, _⟩ | ⟨_, v', v, rfl, rfl, _, _, hs⟩ | ⟨h, _⟩)
    · exact ⟨id, fun _ => id⟩
    · exact ⟨fun _ => rfl, fun a ⟨v, h, _⟩ => (by cases h)⟩
    · exact absurd h (by decide)
    · refine ⟨fun h => (by cases h), fun a ⟨w, hw, ha⟩ => ?_⟩
      cases hw
      exact ⟨v, rfl, hs a ha⟩
    · exact absurd h (by decide)
  · rintro ⟨h1, h2⟩
    cases x' with
    | none => exact .inr (.inl ⟨by simp [checks], rfl⟩)
    | some v' =>
      cases x with
      | none => cases h1 rfl
      | some v =>
        refine .inr (.inr (.inr (.inl ⟨rfl, v', v, rfl, rfl, ord_nonnil (ord_superset hx), ord_nonnil (ord_superset hx'), fun y hy => ?_⟩)))
        obtain ⟨w, hw, h⟩ := h2 y ⟨v', rfl, hy⟩
        cases hw
        exact h

theorem relaxed_essential {x' x : Option Val} (hx : OrdOpt "essential" x) (hx' : OrdOpt "essential" x') :
    RelaxedOp "essential" x' x ↔ (x = none → x' = none) ∧ (x' = some (.bool true) → x = some (.bool true)) := by
  constructor
  · rintro (rfl | ⟨_, rfl⟩ | ⟨h, _⟩ | ⟨h, _⟩ | ⟨_, rfl, h⟩)
    · exact ⟨id, id⟩
    · exact ⟨fun _ => rfl, fun h => by cases h⟩
    · exact absurd h (by decide)
    · exact absurd h (by decide)
    · exact ⟨fun h' => absurd h' h, fun h => by cases h⟩
  · rintro ⟨h1, h2⟩
    cases x' with
    | none => exact .inr (.inl ⟨by simp [checks], rfl⟩)
    | some v' =>
      cases x with
      | none => cases h1 rfl
      | some v =>
        obtain ⟨b, rfl⟩ := ord_essential hx'
        cases b with
        | true => exact .inl (h2 rfl).symm
        | false => exact .inr (.inr (.inr (.inr ⟨rfl, rfl, by simp⟩)))

theorem relaxed_other {op : OpName} (h : op ∉ checks) {x' x : Option Val} (hr : RelaxedOp op x' x) : x' = x := by
  rcases hr with hr | ⟨h', _⟩ | ⟨rfl, _⟩ | ⟨rfl, _⟩ | ⟨rfl, _⟩
  · exact hr
  · exact absurd h' h
  all_goals exact absurd (by decide) h

/-- Merging relaxed operands gives a relaxed operand. -/
theorem mo_relaxed {op : OpName} {x x' y y' z : Option Val} (hx : OrdOpt op x) (hx' : OrdOpt op x') (hy : OrdOpt op y) (hy' : OrdOpt op y') (rx : RelaxedOp op x' x) (ry : RelaxedOp op y' y)
    (h : mo op x y = .ok z) : ∃ z', mo op x' y' = .ok z' ∧ RelaxedOp op z' z := by
  have hz := mo_ord hx hy h
  by_cases hop : op ∈ checks
  · simp only [checks, List.mem_cons, List.not_mem_nil, or_false] at hop
    rcases hop with rfl | rfl | rfl
    · obtain ⟨z1, k1, k2, k3⟩ := mo_oneOf hx hy
      cases k1.symm.trans h
      obtain ⟨z', k4, k5, k6⟩ := mo_oneOf hx' hy'
      refine ⟨z', k4, (relaxed_oneOf hz).mpr ⟨fun hn => ?_, fun a ha => ?_⟩⟩
      · obtain ⟨h1, h2⟩ := k2.mp hn
        exact k5.mpr ⟨((relaxed_oneOf hx).mp rx).1 h1, ((relaxed_oneOf hy).mp ry).1 h2⟩
      · obtain ⟨h1, h2⟩ := (k3 a).mp ha
        exact (k6 a).mpr ⟨((relaxed_oneOf hx).mp rx).2 a h1, ((relaxed_oneOf hy).mp ry).2 a h2⟩
    · obtain ⟨z1, k1, k2, k3⟩ := mo_superset hx hy
      cases k1.symm.trans h
      obtain ⟨z', k4, k5, k6⟩ := mo_superset hx' hy'
      refine ⟨z', k4, (relaxed_superset hz (mo_ord hx' hy' k4)).mpr ⟨fun hn => ?_, fun a ha => ?_⟩⟩
      · obtain ⟨h1, h2⟩ := k2.mp hn
        exact k5.mpr ⟨((relaxed_superset hx hx').mp rx).1 h1, ((relaxed_superset hy hy').mp ry).1 h2⟩
      · exact (k3 a).mpr (((k6 a).mp ha).imp (((relaxed_superset hx hx').mp rx).2 a) (((relaxed_superset hy hy').mp ry).2 a))
    · obtain ⟨z1, k1, k2, k3⟩ := mo_essential hx hy
      cases k1.symm.trans h
      obtain ⟨z', k4, k5, k6⟩ := mo_essential hx' hy'
      refine ⟨z', k4, (relaxed_essential hz (mo_ord hx' hy' k4)).mpr ⟨fun hn => ?_, fun ha => ?_⟩⟩
      · obtain ⟨h1, h2⟩ := k2.mp hn
        exact k5.mpr ⟨((relaxed_essential hx hx').mp rx).1 h1, ((relaxed_essential hy hy').mp ry).1 h2⟩
      · exact k3.mpr ((k6.mp ha).imp ((relaxed_essential hx hx').mp rx).2 ((relaxed_essential hy hy').mp ry).2)
  · rw [relaxed_other hop rx, relaxed_other hop ry]
    exact ⟨z, h, .inl rfl⟩

theorem relaxed_tighter {op : OpName} {v' : Val} {x : Option Val} (hx : OrdOpt op x) (hx' : OrdOpt op (some v')) (h : RelaxedOp op (some v') x) :
    ∃ o v, operators op = some o ∧ x = some v ∧ Tighter o v' v := by
  rcases h with h | ⟨_, h⟩ | ⟨rfl, w, v, h, hx, _, hs⟩ | ⟨rfl, w, v, h, hx, _, _, hs⟩ | ⟨rfl, h, hn⟩
  · obtain ⟨o, ho, _⟩ := hx' v' rfl
    exact ⟨o, v', ho, h.symm, tighter_refl o v'⟩
  · cases h
  · cases h
    exact ⟨.oneOf, v, rfl, hx, hs⟩
  · cases h
    exact ⟨.supersetOf, v, rfl, hx, hs⟩
  · cases x with
    | none => exact absurd rfl hn
    | some v => exact ⟨.essential, v, rfl, rfl, trivial⟩

theorem combine_val_any {p q m : Policy} (hp : KnownPolicy p) (h : combinePolicy p q = .ok m) : ∀ k op, mo op (p.val k op) (q.val k op) = .ok (m.val k op) := by
  rcases combine_cases h with ⟨rfl, rfl⟩ | ⟨rfl, rfl⟩ | ⟨hpe, hqe⟩
  · intro k op
    show mo op _ none = _
    rw [mo_none_right]
  · intro k op
    rfl
  · exact (combine_val hp hpe hqe h).1

theorem combine_relaxed {p p' q q' m : Policy} (hp : OrdPolicy p) (hp' : OrdPolicy p') (hq : OrdPolicy q) (hq' : OrdPolicy q') (rp : RelaxedPolicy p' p) (rq : RelaxedPolicy q' q)
    (h : combinePolicy p q = .ok m) : ∃ m', combinePolicy p' q' = .ok m' ∧ RelaxedPolicy m' m := by
  have hv := combine_val_any hp.toKnownPolicy h
  have A := fun k op => mo_relaxed (hp.ord k op) (hp'.ord k op) (hq.ord k op) (hq'.ord k op) (rp k op) (rq k op) (hv k op)
  have fin : ∀ m' : Policy, (∀ k op, mo op (p'.val k op) (q'.val k op) = .ok (m'.val k op)) → RelaxedPolicy m' m := by
    intro m' hv' k op
    obtain ⟨z, h1, h2⟩ := A k op
    cases h1.symm.trans (hv' k op)
    exact h2
  by_cases hqe' : q' = []
  · subst hqe'
    exact ⟨p', rfl, fin p' (combine_val_any hp'.toKnownPolicy rfl)⟩
  by_cases hpe' : p' = []
  · subst hpe'
    exact ⟨q', combine_nil_left _, fin q' fun _ _ => rfl⟩
  obtain ⟨m', hw, hv', _, hc⟩ := combine_of_val hp'.toKnownPolicy hq'.toKnownPolicy hpe' hqe' (fun k op => (A k op).imp fun _ h => h.1)
  have rm := fin m' hv'
  have hm := combine_ord hp hq h
  have hom' : ∀ k op, OrdOpt op (m'.val k op) := fun k op => mo_ord (hp'.ord k op) (hq'.ord k op) (hv' k op)
  refine ⟨m', hc (policy_verify_of_get hw.wf fun k e he => ?_), rm⟩
  have tight : ∀ op v, e.get op = some v → ∃ o v', operators op = some o ∧ m.val k op = some v' ∧ Tighter o v v' := by
    intro op v hv
    have h1 : RelaxedOp op (m'.val k op) (m.val k op) := rm k op
    have h2 := hom' k op
    rw [val_some he, hv] at h1 h2
    exact relaxed_tighter (hm.ord k op) h2 h1
  have good : ∃ e0 : Entry, (Allowed e0 ∧ NoNull e0) ∧ ∀ op, e0.get op = m.val k op := by
    cases he0 : AMap.get m k with
    | some e0 =>
      exact ⟨e0, (verify_iff_allowed (hm.entries k e0 he0).2).mp (policy_verify_get hm.valid he0), fun op => (val_some he0 op).symm⟩
    | none => exact ⟨[], (verify_iff_allowed (fun n ⟨v, hv⟩ => (by cases hv))).mp rfl, fun op => (val_none he0 op).symm⟩
  obtain ⟨e0, ha, hg⟩ := good
  refine (verify_iff_allowed (hw.entries k e he).2).mpr (weaker_allowed (m := e0) (fun op => by rw [← val_some he]; exact hom' k op) ?_ ha)
  intro op v hv
  rw [hg]
  exact tight op v hv

theorem combineRest_relaxed {ps' ps : List Policy} (h : Each RelaxedPolicy ps' ps) : (∀ p ∈ ps, OrdPolicy p) → (∀ p ∈ ps', OrdPolicy p) → ∀ {out out' m : Policy}, OrdPolicy out → OrdPolicy out' →
    RelaxedPolicy out' out → combineRest out ps = .ok m → ∃ m', combineRest out' ps' = .ok m' ∧ RelaxedPolicy m' m := by
  induction h with
  | nil => intro _ _ out out' m _ _ hr h; cases h; exact ⟨out', rfl, hr⟩
  | cons hpq _ ih =>
    rename_i p' p ps' ps _
    intro hp hp' out out' m ho ho' hr h
    rw [combineRest] at h
    obtain ⟨z, hz, h⟩ := bind_ok h
    have h1 := hp p List.mem_cons_self
    have h2 := hp' p' List.mem_cons_self
    obtain ⟨z', hz', hs⟩ := combine_relaxed ho ho' h1 h2 hr hpq hz
    obtain ⟨m', hm', hsm⟩ := ih (fun p h => hp p (List.mem_cons_of_mem _ h)) (fun p h => hp' p (List.mem_cons_of_mem _ h)) (combine_ord ho h1 hz) (combine_ord ho' h2 hz') hs h
    refine ⟨m', ?_, hsm⟩
    rw [combineRest, hz']
    exact hm'

theorem combineAll_relaxed {ps' ps : List Policy} (h : Each RelaxedPolicy ps' ps) (hp : ∀ p ∈ ps, OrdPolicy p) (hp' : ∀ p ∈ ps', OrdPolicy p) {m : Policy} (hm : combineAll ps = .ok m) :
    ∃ m', combineAll ps' = .ok m' ∧ RelaxedPolicy m' m := by
  cases h with
  | nil => cases hm; exact ⟨[], rfl, fun k op => .inl rfl⟩
  | cons hpq h =>
    rename_i p' p ps' ps
    rw [combineAll] at hm
    obtain ⟨_, _, hm⟩ := bind_ok hm
    obtain ⟨m', hm', hr⟩ := combineRest_relaxed h (fun p h => hp p (List.mem_cons_of_mem _ h)) (fun p h => hp' p (List.mem_cons_of_mem _ h)) (hp p List.mem_cons_self)
      (hp' p' List.mem_cons_self) hpq hm
    refine ⟨m', ?_, hr⟩
    rw [combineAll, (hp' p' List.mem_cons_self).valid]
    exact hm'

/-- Empty policies among ordinary ones make no difference. -/
theorem combineAll_drop {α : Type} {f : α → Option Policies} {t : EType} : ∀ {as : List α}, (∀ a ∈ as, ∀ P, f a = some P → Policy.verify (P.known t) = .ok ()) →
    combineAll ((as.filterMap f).map (fun P => P.known t)) = combineAll (as.map (fun a => ((f a).getD ⟨fun _ => [], []⟩).known t)) := by
  have rest : ∀ (as : List α) (out : Policy), combineRest out ((as.filterMap f).map (fun P => P.known t)) = combineRest out (as.map (fun a => ((f a).getD ⟨fun _ => [], []⟩).known t)) := by
    intro as
    induction as with
    | nil => intro out; rfl
    | cons a as ih =>
      intro out
      cases ha : f a with
      | none =>
        rw [List.filterMap_cons, ha, List.map_cons, ha]
        exact ih out
      | some P =>
        rw [List.filterMap_cons, ha, List.map_cons, List.map_cons, ha]
        show combineRest out (P.known t :: _) = combineRest out (P.known t :: _)
        rw [combineRest, combineRest]
        cases combinePolicy out (P.known t) with
        | error _ => rfl
        | ok z => exact ih z
  have first : ∀ ps : List Policy, (∀ p ∈ ps, Policy.verify p = .ok ()) → combineAll ps = combineRest [] ps := by
    intro ps hps
    cases ps with
    | nil => rfl
    | cons p ps =>
      rw [combineAll, combineRest, hps p List.mem_cons_self, combine_nil_left]
      rfl
  intro as has
  rw [first, first, rest]
  · intro p hp
    obtain ⟨a, ha, rfl⟩ := List.mem_map.mp hp
    cases h : f a with
    | none => rfl
    | some P => exact has a ha P h
  · intro p hp
    simp only [List.mem_map, List.mem_filterMap] at hp
    obtain ⟨P, ⟨a, ha, hP⟩, rfl⟩ := hp
    exact has a ha P hP

end Oidfed
