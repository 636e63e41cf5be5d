import Verif.Lemmas.CustomOps
/-!
# C104–C107: registered policy operators
-/

namespace Oidfed
open Spec

/-- The functions with the built-in tables are those of `Model/Policy`. -/
theorem builtin_registry (ps : List Policy) (p : Policy) (e : Entry) (v : Val) (isSet : Bool) :
    p.verifyIn .builtin = p.verify ∧ combineAllIn .builtin ps = combineAll ps ∧ e.applyToIn .builtin v isSet = e.applyTo v isSet :=
  ⟨builtin_policy_verify p, builtin_combineAll ps, builtin_applyTo e v isSet⟩

theorem agreeBut_register (R : Registry) (o : OpImpl) (i : Nat) : AgreeBut o.name ((R.register o).insertAt i o.name) R where
  ops := fun m hm => by simp [Registry.insertAt, Registry.register, hm]
  verifiers := rfl
  order := by
    have hl : ∀ l : List OpName, (l.take i ++ o.name :: l.drop i).filter (fun m => m ≠ o.name) = l.filter (fun m => m ≠ o.name) := by
      intro l
      rw [List.filter_append, List.filter_cons_of_neg (by simp), ← List.filter_append, List.take_append_drop]
    exact hl R.order

namespace Ex

/-- A custom operator that gives a maximum for numbers; merging takes the smaller maximum. -/
def maxOp : OpImpl where
  name := "max"
  merge := fun a b => match a, b with
    | .num x, .num y => .ok (.num (if x ≤ y then x else y))
    | _, _ => .error .error
  apply := fun c pv _ => match c.v, pv with
    | .num x, .num y => if x ≤ y then .ok c else .error .error
    | _, _ => .error .error
  combine := some ["default", "essential"]

/-- The built-in operators and `max`, which is applied last. -/
def maxR : Registry := (Registry.builtin.register maxOp).insertAt 7 "max"

/-- What `max` demands. -/
def maxSat (pv v : Val) : Prop := ∃ x y, v = .num x ∧ pv = .num y ∧ x ≤ y

theorem maxR_order : maxR.order = operatorOrder ++ ["max"] := rfl

end Ex

/-- **C104**: registering an operator and putting its name into the order, at any position, changes nothing for policies that do not use it. -/
theorem C104_others_unaffected (R : Registry) (o : OpImpl) (i : Nat) :
    (∀ p, ¬ Uses p o.name → p.verifyIn ((R.register o).insertAt i o.name) = p.verifyIn R) ∧
    (∀ ps, (∀ p ∈ ps, ¬ Uses p o.name) → combineAllIn ((R.register o).insertAt i o.name) ps = combineAllIn R ps) ∧
    (∀ (e : Entry) v isSet, o.name ∉ e.keys → e.applyToIn ((R.register o).insertAt i o.name) v isSet = e.applyToIn R v isSet) :=
  ⟨fun _ h => agree_policy_verify (agreeBut_register R o i) h, fun _ h => agree_combineAll (agreeBut_register R o i) h,
    fun _ v s h => agree_applyTo (agreeBut_register R o i) h v s⟩

/-- **C104**, seen from the library as it is: with the built-in operators and one more, policies that do not use the new one are treated as the other theorems say. -/
theorem C104_builtin_unaffected (o : OpImpl) (i : Nat) (ps : List Policy) (h : ∀ p ∈ ps, ¬ Uses p o.name) :
    combineAllIn ((Registry.builtin.register o).insertAt i o.name) ps = combineAll ps ∧
    ∀ (e : Entry) v isSet, o.name ∉ e.keys → e.applyToIn ((Registry.builtin.register o).insertAt i o.name) v isSet = e.applyTo v isSet := by
  obtain ⟨_, h2, h3⟩ := C104_others_unaffected .builtin o i
  refine ⟨by rw [h2 ps h, builtin_combineAll], fun e v s he => by rw [h3 e v s he, builtin_applyTo]⟩

example : ¬ Uses [("a", [("value", Val.num 1)])] Ex.maxOp.name := by
  rintro ⟨k, e, h1, h2⟩
  cases List.mem_singleton.mp h1
  simp [AMap.keys, Ex.maxOp] at h2

theorem runs_of_loop {R : Registry} {e : Entry} : ∀ {l : List OpName} {c d : Cur},
    applyLoopIn R e (e.get "essential" == some (.bool true)) l c = .ok d → Runs R e l c d := by
  intro l
  induction l with
  | nil => intro c d h; cases Except.ok.inj h; exact .done c
  | cons n l ih =>
    intro c d h
    rw [applyLoopIn] at h
    obtain ⟨c', hc, h⟩ := bind_ok h
    unfold applyStepIn at hc
    cases hg : e.get n with
    | none => rw [hg] at hc; cases Except.ok.inj hc; exact .skip hg (ih h)
    | some pv =>
      rw [hg] at hc
      dsimp only at hc
      cases ho : R.ops n with
      | none => rw [ho] at hc; cases hc
      | some o => rw [ho] at hc; exact .use hg ho hc (ih h)

theorem runs_split {R : Registry} {e : Entry} {a b : List OpName} : ∀ {c d : Cur}, Runs R e (a ++ b) c d → ∃ m, Runs R e a c m ∧ Runs R e b m d := by
  induction a with
  | nil => intro c d h; exact ⟨c, .done c, h⟩
  | cons n a ih =>
    intro c d h
    cases h with
    | skip hg h => obtain ⟨m, h1, h2⟩ := ih h; exact ⟨m, .skip hg h1, h2⟩
    | use hg ho hc h => obtain ⟨m, h1, h2⟩ := ih h; exact ⟨m, .use hg ho hc h1, h2⟩

theorem essential_eq (e : Entry) : e.essential = (e.get "essential" == some (.bool true)) := by
  unfold Entry.essential
  show (match e.get "essential" with | some (.bool b) => b | _ => false) = _
  cases e.get "essential" with
  | none => rfl
  | some v =>
    cases v with
    | bool b => cases b <;> rfl
    | _ => simp

/-- **C105**: if a chain with critical operators is not refused, then every critical operator that a policy entry contains is registered and has been applied to
the attribute, at its position in the order, with the value from the entry. -/
theorem C105_critical_enforced (R : Registry) (crit : List OpName) (hc : critOkIn R crit = true) (n : OpName) (hn : n ∈ crit) (e : Entry) (pv : Val)
    (he : e.get n = some pv) (v : Val) (isSet : Bool) (v' : Val) (h : e.applyToIn R v isSet = .ok v') :
    ∃ pre post c c' d o, R.order = pre ++ n :: post ∧ Runs R e pre ⟨v, isSet⟩ c ∧ R.ops n = some o ∧
      o.apply c pv (e.get "essential" == some (.bool true)) = .ok c' ∧ Runs R e post c' d ∧ d.v = v' := by
  have hm : n ∈ R.order := by
    have := List.all_eq_true.mp hc n hn
    simpa using this
  obtain ⟨pre, post, hpp⟩ := List.append_of_mem hm
  unfold Entry.applyToIn at h
  rw [essential_eq] at h
  cases hl : applyLoopIn R e (e.get "essential" == some (.bool true)) R.order ⟨v, isSet⟩ with
  | error x => rw [hl] at h; cases h
  | ok d =>
    rw [hl] at h
    have hd : d.v = v' := Except.ok.inj h
    have hr := runs_of_loop hl
    rw [hpp] at hr
    obtain ⟨c, h1, h2⟩ := runs_split hr
    cases h2 with
    | skip hg _ => rw [he] at hg; cases hg
    | use hg ho hc h2 =>
      rw [he] at hg
      cases hg
      exact ⟨pre, post, c, _, d, _, hpp, h1, ho, hc, h2, hd⟩

/-- **C105**: a chain with a critical operator that is not in the order is refused. -/
theorem C105_critical_unknown (R : Registry) (crit : List OpName) (n : OpName) (hn : n ∈ crit) (ho : n ∉ R.order) : critOkIn R crit = false := by
  rw [Bool.eq_false_iff]
  intro h
  exact ho (by simpa using List.all_eq_true.mp h n hn)

example : critOkIn Ex.maxR ["max"] = true ∧ Entry.applyToIn Ex.maxR [("max", .num 5)] (.num 3) true = .ok (.num 3) ∧
    Entry.applyToIn Ex.maxR [("max", .num 5)] (.num 7) true = .error .error ∧ critOkIn .builtin ["max"] = false := ⟨rfl, rfl, rfl, rfl⟩

/-- **C106**, merging: if the operator's `Merge` tightens and all operators used are registered, then the merged policy restricts at least as much as each one of the merged
policies. Missing: policies that use operators that are not registered (below). -/
theorem C106_merge_tightens_partial (R : Registry) (n : OpName) (Sat : Val → Val → Prop) (ht : ∀ o, R.ops n = some o → Tightens o Sat) (ps : List Policy)
    (hr : ∀ p ∈ ps, Registered R p) (m : Policy) (h : combineAllIn R ps = .ok m) (p : Policy) (hp : p ∈ ps) (k : String) (ep : Entry) (pv : Val)
    (hk : AMap.get p k = some ep) (he : ep.get n = some pv) :
    ∃ e pv', AMap.get m k = some e ∧ e.get n = some pv' ∧ ∀ v, Sat pv' v → Sat pv v := by
  cases ps with
  | nil => cases hp
  | cons q ps =>
    rw [combineAllIn] at h
    obtain ⟨_, _, h⟩ := bind_ok h
    obtain ⟨h1, h2⟩ := combineRest_tight ht (hr q (by simp)) (fun q' hq' => hr q' (List.mem_cons_of_mem _ hq')) h
    have : PTight n Sat m p := by
      rcases List.mem_cons.mp hp with rfl | hp
      · exact h1
      · exact h2 p hp
    obtain ⟨e, h3, h4⟩ := this k ep hk
    obtain ⟨pv', h5, h6⟩ := h4 pv he
    exact ⟨e, pv', h3, h5, h6⟩

/-- **C106**, the outcome: if moreover the operator is applied last and lets only values pass that satisfy it, then a value that passes the merged policy satisfies the
restriction of every superior. Missing: policies that use operators that are not registered (below). -/
theorem C106_enforced_partial (R : Registry) (n : OpName) (Sat : Val → Val → Prop) (ht : ∀ o, R.ops n = some o → Tightens o Sat) (pre : List OpName)
    (hlast : R.order = pre ++ [n]) (hs : ∀ o, R.ops n = some o → ∀ c pv ess c', o.apply c pv ess = .ok c' → Sat pv c'.v) (ps : List Policy)
    (hr : ∀ p ∈ ps, Registered R p) (m : Policy) (h : combineAllIn R ps = .ok m) (k : String) (e : Entry) (hk : AMap.get m k = some e) (v : Val) (isSet : Bool)
    (v' : Val) (ha : e.applyToIn R v isSet = .ok v') (p : Policy) (hp : p ∈ ps) (ep : Entry) (pv : Val) (hkp : AMap.get p k = some ep)
    (he : ep.get n = some pv) : Sat pv v' := by
  obtain ⟨e', pv', h1, h2, h3⟩ := C106_merge_tightens_partial R n Sat ht ps hr m h p hp k ep pv hkp he
  rw [hk] at h1
  cases h1
  have hcrit : critOkIn R [n] = true := by simp [critOkIn, hlast]
  unfold Entry.applyToIn at ha
  rw [essential_eq] at ha
  cases hl : applyLoopIn R e (e.get "essential" == some (.bool true)) R.order ⟨v, isSet⟩ with
  | error x => rw [hl] at ha; cases ha
  | ok d =>
    rw [hl] at ha
    have hd : d.v = v' := Except.ok.inj ha
    have hrun := runs_of_loop hl
    rw [hlast] at hrun
    obtain ⟨c, _, h5⟩ := runs_split hrun
    cases h5 with
    | skip hg _ => rw [h2] at hg; cases hg
    | use hg ho hc h5 =>
      rw [h2] at hg
      cases hg
      cases h5
      rw [← hd]
      exact h3 _ (hs _ ho _ _ _ _ hc)

namespace Ex

theorem max_tightens : ∀ o, maxR.ops "max" = some o → Tightens o maxSat := by
  intro o ho
  have ho : some maxOp = some o := ho
  cases ho
  intro a b c v h hc
  obtain ⟨x, y, rfl, rfl, hxy⟩ := hc
  unfold maxOp at h
  dsimp only at h
  split at h
  · rename_i x' y'
    have h := Except.ok.inj h
    have h : (if x' ≤ y' then x' else y') = y := by injection h
    refine ⟨⟨x, x', rfl, rfl, ?_⟩, ⟨x, y', rfl, rfl, ?_⟩⟩
    · split at h
      · exact h ▸ hxy
      · rename_i hn
        exact Rat.le_trans (h ▸ hxy) ((Rat.le_total).resolve_left hn)
    · split at h
      · rename_i hle
        exact Rat.le_trans (h ▸ hxy) hle
      · exact h ▸ hxy
  · cases h

theorem max_sound : ∀ o, maxR.ops "max" = some o → ∀ c pv ess c', o.apply c pv ess = .ok c' → maxSat pv c'.v := by
  intro o ho
  have ho : some maxOp = some o := ho
  cases ho
  intro c pv ess c' h
  unfold maxOp at h
  dsimp only at h
  split at h
  · rename_i x y hx
    split at h
    · rename_i hle
      cases Except.ok.inj h
      exact ⟨x, y, hx, rfl, hle⟩
    · cases h
  · cases h

/-- An anchor's maximum of 10 and an intermediate's of 5, with a default. -/
def maxPolicies : List Policy := [[("a", [("max", .num 10)])], [("a", [("max", .num 5), ("default", .num 1)])]]

end Ex

example : combineAllIn Ex.maxR Ex.maxPolicies = .error .error := rfl

example : combineAllIn Ex.maxR [[("a", [("max", .num 10)])], [("a", [("max", .num 5), ("essential", .bool true)])]] =
    .ok [("a", [("max", .num 5), ("essential", .bool true)])] ∧
    Entry.applyToIn Ex.maxR [("max", .num 5), ("essential", .bool true)] (.num 3) true = .ok (.num 3) := ⟨rfl, rfl⟩

example : ∀ p ∈ [[("a", [("max", Val.num 10)])], [("a", [("max", .num 5), ("essential", .bool true)])]], Registered Ex.maxR p := by
  intro p hp n hn
  simp only [List.mem_cons, List.not_mem_nil, or_false] at hp
  obtain ⟨k, e, h1, h2⟩ := hn
  rcases hp with rfl | rfl
  · cases List.mem_singleton.mp h1
    simp only [AMap.keys, List.map_cons, List.map_nil, List.mem_cons, List.not_mem_nil, or_false] at h2
    subst h2
    exact ⟨_, rfl⟩
  · cases List.mem_singleton.mp h1
    simp only [AMap.keys, List.map_cons, List.map_nil, List.mem_cons, List.not_mem_nil, or_false] at h2
    rcases h2 with rfl | rfl <;> exact ⟨_, rfl⟩

/-- **C106** is false if two superiors use an operator that is not registered: the merged entry is empty and the intermediate's maximum is gone. -/
theorem C106_unregistered_refuted : ¬ ∀ (R : Registry) (n : OpName) (Sat : Val → Val → Prop), (∀ o, R.ops n = some o → Tightens o Sat) →
    ∀ (pre : List OpName), R.order = pre ++ [n] → (∀ o, R.ops n = some o → ∀ c pv ess c', o.apply c pv ess = .ok c' → Sat pv c'.v) →
    ∀ (ps : List Policy) (m : Policy), combineAllIn R ps = .ok m → ∀ (k : String) (e : Entry), AMap.get m k = some e → ∀ (v : Val) (isSet : Bool)
    (v' : Val), e.applyToIn R v isSet = .ok v' → ∀ p ∈ ps, ∀ (ep : Entry) (pv : Val), AMap.get p k = some ep → ep.get n = some pv → Sat pv v' := by
  intro h
  have := h Ex.maxR "max" Ex.maxSat Ex.max_tightens operatorOrder Ex.maxR_order Ex.max_sound
    [[("a", [("foo", .num 1)])], [("a", [("max", .num 5), ("foo", .num 1)])]] [("a", [])] ?_ "a" [] rfl (.num 7) true (.num 7) rfl
    [("a", [("max", .num 5), ("foo", .num 1)])] (by simp) [("max", .num 5), ("foo", .num 1)] (.num 5) rfl rfl
  · obtain ⟨x, y, h1, h2, h3⟩ := this
    cases h1; cases h2
    exact absurd h3 (by decide)
  · rfl

theorem builtin_ownNames : OwnNames .builtin := by
  intro n o h
  simp only [Registry.builtin, Option.map_eq_some_iff] at h
  obtain ⟨op, h, rfl⟩ := h
  unfold operators at h
  repeat (first | (split at h; · rename_i e; cases h; exact e.symm) | cases h)

theorem register_ownNames {R : Registry} (h : OwnNames R) (o : OpImpl) : OwnNames (R.register o) := by
  intro n o' ho
  simp only [Registry.register] at ho
  split at ho
  · rename_i e; cases ho; exact e.symm
  · exact h n o' ho

theorem runAll_ok (e : Entry) (vs : List (Entry → Res Unit)) : runAll e vs = .ok () ↔ ∀ v ∈ vs, v e = .ok () := by
  induction vs with
  | nil => simp [runAll]
  | cons v vs ih =>
    rw [runAll]
    cases hv : v e with
    | error x => simp [bind, Except.bind, hv]
    | ok u => simp [bind, Except.bind, hv, ih]

/-- **C107**, exactly: an entry is accepted if and only if any two of its operators allow each other and all verifiers accept it. Missing: that the declaration of one of
the operators is enough (below). -/
theorem C107_combination_partial (R : Registry) (hR : OwnNames R) (e : Entry) :
    e.verifyIn R = .ok () ↔ (∀ m n, m ∈ e.keys → n ∈ e.keys → MayCombine R m n) ∧ ∀ v ∈ R.verifiers, v e = .ok () := by
  have key : (e.keys.all (combineOkIn R e.keys) = true) ↔ ∀ m n, m ∈ e.keys → n ∈ e.keys → MayCombine R m n := by
    rw [List.all_eq_true]
    constructor
    · intro h m n hm hn
      by_cases hmn : m = n
      · exact .inl hmn
      · refine .inr ?_
        have aux : ∀ x y, x ∈ e.keys → y ∈ e.keys → x ≠ y → ∀ o l, R.ops x = some o → o.combine = some l → y ∈ l := by
          intro x y hx hy hxy o l ho hl
          have h1 := h x hx
          unfold combineOkIn at h1
          rw [ho] at h1
          dsimp only at h1
          rw [hl] at h1
          have h2 := List.all_eq_true.mp h1 y hy
          have h3 : y ∈ l ++ [o.name] := by simpa using h2
          rcases List.mem_append.mp h3 with h3 | h3
          · exact h3
          · rw [hR x o ho] at h3
            exact absurd (List.mem_singleton.mp h3).symm hxy
        rintro x y (⟨rfl, rfl⟩ | ⟨rfl, rfl⟩) o l
        · exact aux x y hm hn hmn o l
        · exact aux x y hn hm (fun h => hmn h.symm) o l
    · intro h x hx
      unfold combineOkIn
      cases ho : R.ops x with
      | none => rfl
      | some o =>
        dsimp only
        cases hl : o.combine with
        | none => rfl
        | some l =>
          dsimp only
          rw [List.all_eq_true]
          intro y hy
          have : y ∈ l ++ [o.name] := by
            rcases h x y hx hy with e | h
            · subst e; rw [hR x o ho]; simp
            · exact List.mem_append.mpr (.inl (h x y (.inl ⟨rfl, rfl⟩) o l ho hl))
          simpa using this
  unfold Entry.verifyIn
  split
  · rename_i hk; rw [runAll_ok]; exact ⟨fun h => ⟨key.mp hk, h⟩, fun h => h.2⟩
  · rename_i hk
    refine ⟨fun h => (by cases h), fun h => absurd (key.mpr h.1) hk⟩

/-- **C107** is false: an operator that declares that it may be combined with `default` cannot be combined with it, since `default` does not list it. -/
theorem C107_declared_refuted : ¬ ∀ (o : OpImpl) (i : Nat) (l : List OpName) (n : OpName) (a b : Val), operators o.name = none → o.combine = some l → n ∈ l →
    (∀ v ∈ Registry.builtin.verifiers, v [(o.name, a), (n, b)] = .ok ()) →
    Entry.verifyIn ((Registry.builtin.register o).insertAt i o.name) [(o.name, a), (n, b)] = .ok () := by
  intro h
  have := h Ex.maxOp 7 ["default", "essential"] "default" (.num 5) (.num 1) rfl rfl (by simp) ?_
  · exact absurd this (by intro h; cases h)
  · intro v hv
    simp only [Registry.builtin, List.mem_cons, List.not_mem_nil, or_false] at hv
    rcases hv with rfl | rfl | rfl | rfl | rfl | rfl | rfl | rfl <;> rfl

example : OwnNames Ex.maxR ∧ Entry.verifyIn Ex.maxR [("max", .num 5), ("essential", .bool true)] = .ok () ∧
    Entry.verifyIn Ex.maxR [("max", .num 5), ("value", .num 1)] = .error .error :=
  ⟨register_ownNames builtin_ownNames Ex.maxOp, rfl, rfl⟩

/-! ## C115: registrations take effect -/

/-- **C115**, applying: after an operator was registered, also under a name that was registered before, it is this operator whose `Apply` runs, at its position in the
order, for every entry that contains its name. -/
theorem C115_applied (R : Registry) (o : OpImpl) (ho : o.name ∈ R.order) (e : Entry) (pv : Val) (he : e.get o.name = some pv) (v : Val) (isSet : Bool) (v' : Val)
    (h : e.applyToIn (R.register o) v isSet = .ok v') :
    ∃ pre post c c' d, R.order = pre ++ o.name :: post ∧ Runs (R.register o) e pre ⟨v, isSet⟩ c ∧
      o.apply c pv (e.get "essential" == some (.bool true)) = .ok c' ∧ Runs (R.register o) e post c' d ∧ d.v = v' := by
  obtain ⟨pre, post, c, c', d, o', h1, h2, h3, h4, h5, h6⟩ := C105_critical_enforced (R.register o) [o.name]
    (by simpa [critOkIn, Registry.register] using ho) o.name List.mem_cons_self e pv he v isSet v' h
  have h3 : (if o.name = o.name then some o else R.ops o.name) = some o' := h3
  rw [if_pos rfl] at h3
  cases h3
  exact ⟨pre, post, c, c', d, h1, h2, h4, h5, h6⟩

/-- **C115**, merging: what two policies say with the operator is merged with its `Merge`. Missing: policies that use operators that are not registered
(`C115_merged_refuted`). -/
theorem C115_merged_partial (R : Registry) (o : OpImpl) (p q m : Policy) (hp : Registered (R.register o) p) (h : combineAllIn (R.register o) [p, q] = .ok m)
    (k : String) (ep eq : Entry) (x y : Val) (h1 : AMap.get p k = some ep) (h2 : AMap.get q k = some eq) (h3 : ep.get o.name = some x)
    (h4 : eq.get o.name = some y) : ∃ e z, AMap.get m k = some e ∧ o.merge x y = .ok z ∧ e.get o.name = some z := by
  rw [combineAllIn] at h
  obtain ⟨_, _, h⟩ := bind_ok h
  rw [combineRestIn] at h
  obtain ⟨out, hc, h⟩ := bind_ok h
  cases Except.ok.inj h
  unfold combinePolicyIn at hc
  split at hc
  · rename_i hs
    rw [List.isEmpty_iff.mp hs] at h2
    cases h2
  · split at hc
    · rename_i hs
      rw [List.isEmpty_iff.mp hs] at h1
      cases h1
    · obtain ⟨out', ho, hc⟩ := bind_ok hc
      obtain ⟨_, _, hc⟩ := bind_ok hc
      cases Except.ok.inj hc
      obtain ⟨res, hout, hres⟩ := combineLoopIn_get ho
      rw [List.nil_append] at hout
      subst hout
      rcases (hres k).2 ep h1 with ⟨hn, _⟩ | ⟨eq', em, he, hm, hr⟩
      · rw [h2] at hn; cases hn
      · rw [h2] at he
        cases he
        rcases (mergeEntriesIn_get (registered_get hp h1) hm o.name).2 x h3 with ⟨hn, _⟩ | ⟨y', o', z, hy, ho', hz, hg⟩
        · rw [h4] at hn; cases hn
        · rw [h4] at hy
          cases hy
          have ho' : (if o.name = o.name then some o else R.ops o.name) = some o' := ho'
          rw [if_pos rfl] at ho'
          cases ho'
          refine ⟨em, z, ?_, hz, hg⟩
          rw [get_append, show AMap.get out' k = some em from hr]; rfl

/-- **C115** fails for merging if both policies also contain an operator that is not registered: the merged entry is empty, although both say something with
the registered operator. -/
theorem C115_merged_refuted : ¬ ∀ (R : Registry) (o : OpImpl) (p q m : Policy), combineAllIn (R.register o) [p, q] = .ok m →
    ∀ (k : String) (ep eq : Entry) (x y : Val), AMap.get p k = some ep → AMap.get q k = some eq → ep.get o.name = some x →
    eq.get o.name = some y → ∃ e z, AMap.get m k = some e ∧ o.merge x y = .ok z ∧ e.get o.name = some z := by
  intro h
  obtain ⟨e, z, h1, _, h3⟩ := h Registry.builtin { Ex.maxOp with combine := none } [("a", [("foo", .num 1), ("max", .num 5)])] [("a", [("max", .num 5), ("foo", .num 1)])] [("a", [])]
    rfl "a" _ _ (.num 5) (.num 5) rfl rfl rfl rfl
  cases h1
  cases h3

/-- **C115**, verifying: after a verifier was registered, an entry is accepted exactly if it was accepted before and the new verifier accepts it; nothing changes for
the application of entries. -/
theorem C115_verifier (R : Registry) (v : Entry → Res Unit) (e : Entry) :
    (e.verifyIn (R.registerVerifier v) = .ok () ↔ e.verifyIn R = .ok () ∧ v e = .ok ()) ∧
    ∀ x isSet, e.applyToIn (R.registerVerifier v) x isSet = e.applyToIn R x isSet := by
  refine ⟨?_, ?_⟩
  · unfold Entry.verifyIn
    have : combineOkIn (R.registerVerifier v) e.keys = combineOkIn R e.keys := rfl
    rw [this]
    split
    · rw [runAll_ok, runAll_ok]
      simp only [Registry.registerVerifier, List.mem_append, List.mem_singleton]
      constructor
      · exact fun h => ⟨fun w hw => h w (.inl hw), h v (.inr rfl)⟩
      · rintro ⟨h1, h2⟩ w (hw | rfl)
        · exact h1 w hw
        · exact h2
    · constructor
      · intro h; cases h
      · rintro ⟨h, _⟩; cases h
  · intro x isSet
    unfold Entry.applyToIn
    congr 1
    generalize (⟨x, isSet⟩ : Cur) = c
    show applyLoopIn (R.registerVerifier v) e e.essential R.order c = applyLoopIn R e e.essential R.order c
    generalize R.order = l
    induction l generalizing c with
    | nil => rfl
    | cons n l ih =>
      rw [applyLoopIn, applyLoopIn]
      show (applyStepIn R e e.essential c n >>= _) = _
      cases applyStepIn R e e.essential c n with
      | error x => rfl
      | ok c' => exact ih c'

namespace Ex

/-- A verifier that refuses bounds above 100. -/
def noLarge (e : Entry) : Res Unit :=
  match e.get "max" with
  | some (.num n) => if n ≤ 100 then .ok () else .error .error
  | _ => .ok ()

/-- The operator `max` under the name of a built-in one. -/
def maxAsValue : OpImpl := { maxOp with name := "value" }

end Ex

/-- A registered operator in use, one that replaces a built-in operator, and a verifier. -/
example : Entry.applyToIn Ex.maxR [("max", .num 5)] (.num 3) true = .ok (.num 3) ∧
    combineAllIn Ex.maxR [[("a", [("max", .num 5)])], [("a", [("max", .num 4)])]] = .ok [("a", [("max", .num 4)])] ∧
    Entry.applyToIn (Registry.builtin.register Ex.maxAsValue) [("value", .num 5)] (.num 3) true = .ok (.num 3) ∧
    Entry.applyToIn .builtin [("value", .num 5)] (.num 3) true = .ok (.num 5) ∧
    Entry.verifyIn (Ex.maxR.registerVerifier Ex.noLarge) [("max", .num 5)] = .ok () ∧
    Entry.verifyIn (Ex.maxR.registerVerifier Ex.noLarge) [("max", .num 500)] = .error .error := ⟨rfl, rfl, rfl, rfl, rfl, rfl⟩

end Oidfed
