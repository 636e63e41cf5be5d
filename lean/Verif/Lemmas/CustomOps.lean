import Verif.Spec.CustomOps
import Verif.Lemmas.Merge
/-! Lemmas about merging and applying with registered operators. -/

namespace Oidfed
open Spec

/-! ## The built-in tables -/

theorem builtin_verify (p : Entry) : Entry.verifyIn .builtin p = Entry.verify p := by
  have h : combineOkIn .builtin p.keys = combineOk p.keys := by
    funext n
    unfold combineOkIn combineOk Registry.builtin
    dsimp only
    cases operators n <;> rfl
  unfold Entry.verifyIn Entry.verify
  rw [h]
  split
  · simp only [Registry.builtin, runAll, runVerifiers]
    cases vOneOfExclusive p <;> try rfl
    cases vSubset opSupersetOf opSubsetOf p <;> try rfl
    cases vSubset opAdd opSubsetOf p <;> try rfl
    cases vAddInOneOf p <;> try rfl
    cases vSubset opAdd opValue p <;> try rfl
    cases vOneOfNonempty p <;> try rfl
    cases vSubset opValue opSubsetOf p <;> try rfl
    cases vDefaultAndValue p <;> rfl
  · rfl

theorem builtin_policy_verify (p : Policy) : Policy.verifyIn .builtin p = Policy.verify p := by
  induction p with
  | nil => rfl
  | cons kv p ih => obtain ⟨k, e⟩ := kv; rw [Policy.verifyIn, Policy.verify, builtin_verify, ih]

theorem builtin_mergeLoop (b a out : Entry) : mergeLoopIn .builtin b a out = mergeLoop b a out := by
  induction a generalizing out with
  | nil => rfl
  | cons kv a ih =>
    obtain ⟨op, av⟩ := kv
    rw [mergeLoopIn, mergeLoop]
    cases b.get op with
    | none => exact ih _
    | some bv =>
      simp only [Registry.builtin]
      cases operators op with
      | none => rfl
      | some o =>
        simp only [Option.map_some, Op.impl]
        cases o.merge av bv with
        | error e => rfl
        | ok c => exact ih _

theorem builtin_mergeEntries (a b : Entry) : mergeEntriesIn .builtin a b = mergeEntries a b := by
  unfold mergeEntriesIn mergeEntries
  rw [builtin_mergeLoop]
  cases mergeLoop b a [] with
  | error e => rfl
  | ok r => cases r <;> rfl

theorem builtin_combineLoop (s p out : Policy) : combineLoopIn .builtin s p out = combineLoop s p out := by
  induction p generalizing out with
  | nil => rfl
  | cons kv p ih =>
    obtain ⟨k, pv⟩ := kv
    rw [combineLoopIn, combineLoop]
    cases AMap.get s k with
    | none => exact ih _
    | some sv =>
      dsimp only
      rw [builtin_mergeEntries]
      cases mergeEntries pv sv with
      | error e => rfl
      | ok c => exact ih _

theorem builtin_combinePolicy (a b : Policy) : combinePolicyIn .builtin a b = combinePolicy a b := by
  unfold combinePolicyIn combinePolicy
  simp only [builtin_combineLoop, builtin_policy_verify]

theorem builtin_combineRest (ps : List Policy) (p : Policy) : combineRestIn .builtin p ps = combineRest p ps := by
  induction ps generalizing p with
  | nil => rfl
  | cons q ps ih =>
    rw [combineRestIn, combineRest, builtin_combinePolicy]
    cases combinePolicy p q with
    | error e => rfl
    | ok c => exact ih _

theorem builtin_combineAll (ps : List Policy) : combineAllIn .builtin ps = combineAll ps := by
  cases ps with
  | nil => rfl
  | cons p ps => rw [combineAllIn, combineAll, builtin_policy_verify, builtin_combineRest]

theorem builtin_applyTo (p : Entry) (v : Val) (isSet : Bool) : p.applyToIn .builtin v isSet = p.applyTo v isSet := by
  unfold Entry.applyToIn Entry.applyTo Entry.applyCur
  congr 1

/-! ## Registries that differ in operators that are not used -/

/-- The registries agree but for operator `n`. -/
structure AgreeBut (n : OpName) (R R' : Registry) : Prop where
  ops : ∀ m, m ≠ n → R.ops m = R'.ops m
  verifiers : R.verifiers = R'.verifiers
  order : R.order.filter (fun m => m ≠ n) = R'.order.filter (fun m => m ≠ n)

theorem agree_verify {n : OpName} {R R' : Registry} (h : AgreeBut n R R') {e : Entry} (hn : n ∉ e.keys) : e.verifyIn R = e.verifyIn R' := by
  unfold Entry.verifyIn
  rw [h.verifiers]
  have : e.keys.all (combineOkIn R e.keys) = e.keys.all (combineOkIn R' e.keys) := by
    rw [Bool.eq_iff_iff, List.all_eq_true, List.all_eq_true]
    refine forall_congr' fun m => forall_congr' fun hm => ?_
    have : m ≠ n := by rintro rfl; exact hn hm
    unfold combineOkIn
    rw [h.ops m this]
  rw [this]

theorem agree_policy_verify {n : OpName} {R R' : Registry} (h : AgreeBut n R R') {p : Policy} (hn : ¬ Uses p n) : p.verifyIn R = p.verifyIn R' := by
  induction p with
  | nil => rfl
  | cons kv p ih =>
    obtain ⟨k, e⟩ := kv
    rw [Policy.verifyIn, Policy.verifyIn, agree_verify h (fun hh => hn ⟨k, e, by simp, hh⟩), ih]
    rintro ⟨k', e', h1, h2⟩
    exact hn ⟨k', e', List.mem_cons_of_mem _ h1, h2⟩

theorem agree_mergeLoop {n : OpName} {R R' : Registry} (h : AgreeBut n R R') (b : Entry) {a : Entry} (out : Entry) (hn : n ∉ a.keys) :
    mergeLoopIn R b a out = mergeLoopIn R' b a out := by
  induction a generalizing out with
  | nil => rfl
  | cons kv a ih =>
    obtain ⟨op, av⟩ := kv
    have h1 : op ≠ n := by rintro rfl; exact hn (by simp [AMap.keys])
    have h2 : n ∉ AMap.keys a := fun hh => hn (List.mem_cons_of_mem _ hh)
    rw [mergeLoopIn, mergeLoopIn, h.ops op h1]
    cases b.get op with
    | none => exact ih _ h2
    | some bv =>
      dsimp only
      cases R'.ops op with
      | none => rfl
      | some o =>
        dsimp only
        cases o.merge av bv with
        | error e => rfl
        | ok c => exact ih _ h2

theorem mergeLoopIn_keys {R : Registry} {b : Entry} : ∀ {a out out' : Entry}, mergeLoopIn R b a out = .ok (some out') → out'.keys = out.keys ++ a.keys := by
  intro a
  induction a with
  | nil => intro out out' h; cases Except.ok.inj h; simp [AMap.keys]
  | cons kv a ih =>
    obtain ⟨op, av⟩ := kv
    intro out out' h
    rw [mergeLoopIn] at h
    cases hb : b.get op with
    | none => rw [hb] at h; rw [ih h, keys_append]; simp [AMap.keys]
    | some bv =>
      rw [hb] at h
      dsimp only at h
      cases ho : R.ops op with
      | none => rw [ho] at h; cases h
      | some o =>
        rw [ho] at h
        dsimp only at h
        obtain ⟨z, hz, h⟩ := bind_ok h
        rw [ih h, keys_append]; simp [AMap.keys]

theorem mergeEntriesIn_keys {R : Registry} {a b m : Entry} (h : mergeEntriesIn R a b = .ok m) {n : OpName} (hn : n ∈ m.keys) : n ∈ a.keys ∨ n ∈ b.keys := by
  unfold mergeEntriesIn at h
  obtain ⟨r, hr, h⟩ := bind_ok h
  cases r with
  | none => cases Except.ok.inj h; cases hn
  | some out =>
    have h := Except.ok.inj h
    have hk := mergeLoopIn_keys hr
    rw [← h, keys_append, List.mem_append, hk] at hn
    rcases hn with hn | hn
    · exact .inl (by simpa [AMap.keys] using hn)
    · right
      obtain ⟨kv, h1, h2⟩ := List.mem_map.mp hn
      exact List.mem_map.mpr ⟨kv, (List.mem_filter.mp h1).1, h2⟩

theorem combineLoopIn_uses {R : Registry} {s : Policy} : ∀ {p out out' : Policy}, combineLoopIn R s p out = .ok out' → ∀ n, Uses out' n →
    Uses out n ∨ Uses p n ∨ Uses s n := by
  intro p
  induction p with
  | nil => intro out out' h n hu; cases Except.ok.inj h; exact .inl hu
  | cons kv p ih =>
    obtain ⟨k, pv⟩ := kv
    intro out out' h n hu
    have weaken : Uses p n → Uses ((k, pv) :: p) n := by
      rintro ⟨k', e, h1, h2⟩
      exact ⟨k', e, List.mem_cons_of_mem _ h1, h2⟩
    have app : ∀ e', Uses (out ++ [(k, e')]) n → Uses out n ∨ n ∈ e'.keys := by
      rintro e' ⟨k', e, h1, h2⟩
      rcases List.mem_append.mp h1 with h1 | h1
      · exact .inl ⟨k', e, h1, h2⟩
      · cases List.mem_singleton.mp h1; exact .inr h2
    rw [combineLoopIn] at h
    cases hb : AMap.get s k with
    | none =>
      rw [hb] at h
      rcases ih h n hu with h1 | h1 | h1
      · rcases app _ h1 with h1 | h1
        · exact .inl h1
        · exact .inr (.inl ⟨k, pv, by simp, h1⟩)
      · exact .inr (.inl (weaken h1))
      · exact .inr (.inr h1)
    | some sv =>
      rw [hb] at h
      dsimp only at h
      obtain ⟨z, hz, h⟩ := bind_ok h
      rcases ih h n hu with h1 | h1 | h1
      · rcases app _ h1 with h1 | h1
        · exact .inl h1
        · rcases mergeEntriesIn_keys hz h1 with h1 | h1
          · exact .inr (.inl ⟨k, pv, by simp, h1⟩)
          · exact .inr (.inr ⟨k, sv, get_mem hb, h1⟩)
      · exact .inr (.inl (weaken h1))
      · exact .inr (.inr h1)

theorem combinePolicyIn_uses {R : Registry} {p s m : Policy} (h : combinePolicyIn R p s = .ok m) {n : OpName} (hu : Uses m n) : Uses p n ∨ Uses s n := by
  unfold combinePolicyIn at h
  split at h
  · cases Except.ok.inj h; exact .inl hu
  · split at h
    · cases Except.ok.inj h; exact .inr hu
    · obtain ⟨out, ho, h⟩ := bind_ok h
      dsimp only at h
      obtain ⟨_, _, h⟩ := bind_ok h
      have h := Except.ok.inj h
      obtain ⟨k, e, h1, h2⟩ := hu
      rw [← h] at h1
      rcases List.mem_append.mp h1 with h1 | h1
      · rcases combineLoopIn_uses ho n ⟨k, e, h1, h2⟩ with ⟨_, _, h3, _⟩ | h3
        · cases h3
        · exact h3
      · exact .inr ⟨k, e, (List.mem_filter.mp h1).1, h2⟩

theorem agree_mergeEntries {n : OpName} {R R' : Registry} (h : AgreeBut n R R') {a : Entry} (b : Entry) (hn : n ∉ a.keys) :
    mergeEntriesIn R a b = mergeEntriesIn R' a b := by
  unfold mergeEntriesIn
  rw [agree_mergeLoop h b [] hn]

theorem agree_combineLoop {n : OpName} {R R' : Registry} (h : AgreeBut n R R') (s : Policy) {p : Policy} (out : Policy) (hn : ¬ Uses p n) :
    combineLoopIn R s p out = combineLoopIn R' s p out := by
  induction p generalizing out with
  | nil => rfl
  | cons kv p ih =>
    obtain ⟨k, pv⟩ := kv
    have hn' : ¬ Uses p n := by
      rintro ⟨k', e, h1, h2⟩
      exact hn ⟨k', e, List.mem_cons_of_mem _ h1, h2⟩
    rw [combineLoopIn, combineLoopIn]
    cases AMap.get s k with
    | none => exact ih _ hn'
    | some sv =>
      dsimp only
      rw [agree_mergeEntries h sv (fun hh => hn ⟨k, pv, by simp, hh⟩)]
      cases mergeEntriesIn R' pv sv with
      | error e => rfl
      | ok c => exact ih _ hn'

theorem agree_combinePolicy {n : OpName} {R R' : Registry} (h : AgreeBut n R R') {p s : Policy} (hp : ¬ Uses p n) (hs : ¬ Uses s n) :
    combinePolicyIn R p s = combinePolicyIn R' p s := by
  unfold combinePolicyIn
  split
  · rfl
  · split
    · rfl
    · rw [agree_combineLoop h s [] hp]
      cases ho : combineLoopIn R' s p [] with
      | error e => rfl
      | ok out =>
        simp only [bind, Except.bind]
        rw [agree_policy_verify h]
        rintro ⟨k, e, h1, h2⟩
        rcases List.mem_append.mp h1 with h1 | h1
        · rcases combineLoopIn_uses ho n ⟨k, e, h1, h2⟩ with ⟨_, _, h3, _⟩ | h3 | h3
          · cases h3
          · exact hp h3
          · exact hs h3
        · exact hs ⟨k, e, (List.mem_filter.mp h1).1, h2⟩

theorem agree_combineRest {n : OpName} {R R' : Registry} (h : AgreeBut n R R') {ps : List Policy} {p : Policy} (hp : ¬ Uses p n)
    (hs : ∀ q ∈ ps, ¬ Uses q n) : combineRestIn R p ps = combineRestIn R' p ps := by
  induction ps generalizing p with
  | nil => rfl
  | cons q ps ih =>
    rw [combineRestIn, combineRestIn, agree_combinePolicy h hp (hs q (by simp))]
    cases hc : combinePolicyIn R' p q with
    | error e => rfl
    | ok c =>
      refine ih ?_ (fun q' hq' => hs q' (List.mem_cons_of_mem _ hq'))
      intro hu
      rcases combinePolicyIn_uses hc hu with hu | hu
      · exact hp hu
      · exact hs q (by simp) hu

theorem agree_combineAll {n : OpName} {R R' : Registry} (h : AgreeBut n R R') {ps : List Policy} (hs : ∀ q ∈ ps, ¬ Uses q n) :
    combineAllIn R ps = combineAllIn R' ps := by
  cases ps with
  | nil => rfl
  | cons p ps =>
    rw [combineAllIn, combineAllIn, agree_policy_verify h (hs p (by simp)), agree_combineRest h (hs p (by simp)) (fun q hq => hs q (List.mem_cons_of_mem _ hq))]

theorem get_none_of_not_key {α : Type} {m : AMap α} {k : String} (h : k ∉ m.keys) : m.get k = none := by
  cases hg : m.get k with
  | none => rfl
  | some v => exact absurd (List.mem_map.mpr ⟨(k, v), get_mem hg, rfl⟩) h

theorem applyLoopIn_filter (R : Registry) (e : Entry) (ess : Bool) {n : OpName} (hn : n ∉ e.keys) (l : List OpName) (c : Cur) :
    applyLoopIn R e ess l c = applyLoopIn R e ess (l.filter (fun m => m ≠ n)) c := by
  induction l generalizing c with
  | nil => rfl
  | cons m l ih =>
    by_cases hm : m = n
    · subst hm
      rw [List.filter_cons_of_neg (by simp), applyLoopIn, show applyStepIn R e ess c m = .ok c by
        unfold applyStepIn; rw [get_none_of_not_key hn]]
      exact ih c
    · rw [List.filter_cons_of_pos (by simpa using hm), applyLoopIn, applyLoopIn]
      cases applyStepIn R e ess c m with
      | error x => rfl
      | ok c => exact ih c

theorem agree_applyTo {n : OpName} {R R' : Registry} (h : AgreeBut n R R') {e : Entry} (hn : n ∉ e.keys) (v : Val) (isSet : Bool) :
    e.applyToIn R v isSet = e.applyToIn R' v isSet := by
  unfold Entry.applyToIn
  rw [applyLoopIn_filter R e _ hn, applyLoopIn_filter R' e _ hn, h.order]
  congr 1
  have hl : ∀ m ∈ R'.order.filter (fun m => m ≠ n), m ≠ n := fun m hm => by simpa using (List.mem_filter.mp hm).2
  generalize R'.order.filter (fun m => m ≠ n) = l at hl
  generalize (⟨v, isSet⟩ : Cur) = c
  induction l generalizing c with
  | nil => rfl
  | cons m l ih =>
    rw [applyLoopIn, applyLoopIn]
    have : applyStepIn R e e.essential c m = applyStepIn R' e e.essential c m := by
      unfold applyStepIn; rw [h.ops m (hl m (by simp))]
    rw [this]
    cases applyStepIn R' e e.essential c m with
    | error x => rfl
    | ok c => exact ih (fun m hm => hl m (List.mem_cons_of_mem _ hm)) c

/-! ## Merging with registered operators -/

theorem mergeLoopIn_get {R : Registry} {b : Entry} : ∀ {a out : Entry} {r : Option Entry}, (∀ n ∈ a.keys, ∃ o, R.ops n = some o) →
    mergeLoopIn R b a out = .ok r → ∃ res, r = some (out ++ res) ∧ ∀ op,
      (a.get op = none → AMap.get res op = none) ∧
      (∀ x, a.get op = some x → (b.get op = none ∧ AMap.get res op = some x) ∨
        ∃ y o z, b.get op = some y ∧ R.ops op = some o ∧ o.merge x y = .ok z ∧ AMap.get res op = some z) := by
  intro a
  induction a with
  | nil =>
    intro out r _ h
    exact ⟨[], by rw [List.append_nil]; exact (Except.ok.inj h).symm, fun op => ⟨fun _ => rfl, fun x hx => by cases hx⟩⟩
  | cons kv a ih =>
    obtain ⟨op, av⟩ := kv
    intro out r hreg h
    have hreg' : ∀ n ∈ AMap.keys a, ∃ o, R.ops n = some o := fun n hn => hreg n (List.mem_cons_of_mem _ hn)
    rw [mergeLoopIn] at h
    cases hb : b.get op with
    | none =>
      rw [hb] at h
      obtain ⟨res, h1, h2⟩ := ih hreg' h
      refine ⟨(op, av) :: res, by rw [h1]; simp, fun n => ?_⟩
      rw [get_cons, get_cons]
      split
      · rename_i hn; subst hn
        exact ⟨fun h => (by cases h), fun x hx => .inl ⟨hb, hx⟩⟩
      · exact h2 n
    | some bv =>
      rw [hb] at h
      dsimp only at h
      obtain ⟨o, ho⟩ := hreg op (by simp [AMap.keys])
      rw [ho] at h
      dsimp only at h
      obtain ⟨z, hz, h⟩ := bind_ok h
      obtain ⟨res, h1, h2⟩ := ih hreg' h
      refine ⟨(op, z) :: res, by rw [h1]; simp, fun n => ?_⟩
      rw [get_cons, get_cons]
      split
      · rename_i hn; subst hn
        refine ⟨fun h => (by cases h), fun x hx => ?_⟩
        cases hx
        exact .inr ⟨bv, o, z, hb, ho, hz, rfl⟩
      · exact h2 n

theorem mergeEntriesIn_get {R : Registry} {a b m : Entry} (hreg : ∀ n ∈ a.keys, ∃ o, R.ops n = some o) (h : mergeEntriesIn R a b = .ok m) (op : OpName) :
    (a.get op = none → m.get op = b.get op) ∧
    (∀ x, a.get op = some x → (b.get op = none ∧ m.get op = some x) ∨
      ∃ y o z, b.get op = some y ∧ R.ops op = some o ∧ o.merge x y = .ok z ∧ m.get op = some z) := by
  unfold mergeEntriesIn at h
  obtain ⟨r, hr, h⟩ := bind_ok h
  obtain ⟨res, rfl, h2⟩ := mergeLoopIn_get hreg hr
  rw [List.nil_append] at h
  have h := Except.ok.inj h
  obtain ⟨h3, h4⟩ := h2 op
  rw [← h, get_append, get_filter b (fun k => (AMap.get res k).isNone)]
  refine ⟨fun ha => by simp [h3 ha], fun x hx => ?_⟩
  rcases h4 x hx with ⟨h5, h6⟩ | ⟨y, o, z, h5, h6, h7, h8⟩
  · exact .inl ⟨h5, by rw [h6]; rfl⟩
  · exact .inr ⟨y, o, z, h5, h6, h7, by rw [h8]; rfl⟩

/-- The value of operator `n` in `m` restricts at least as much as the one in `e`. -/
def ETight (n : OpName) (Sat : Val → Val → Prop) (m e : Entry) : Prop :=
  ∀ pv, e.get n = some pv → ∃ pv', m.get n = some pv' ∧ ∀ v, Sat pv' v → Sat pv v

theorem etight_refl (n : OpName) (Sat : Val → Val → Prop) (e : Entry) : ETight n Sat e e := fun pv h => ⟨pv, h, fun _ h => h⟩

theorem etight_trans {n : OpName} {Sat : Val → Val → Prop} {a b c : Entry} (h1 : ETight n Sat a b) (h2 : ETight n Sat b c) : ETight n Sat a c := by
  intro pv h
  obtain ⟨pv', h3, h4⟩ := h2 pv h
  obtain ⟨pv'', h5, h6⟩ := h1 pv' h3
  exact ⟨pv'', h5, fun v hv => h4 v (h6 v hv)⟩

theorem merge_tight {R : Registry} {n : OpName} {Sat : Val → Val → Prop} (ht : ∀ o, R.ops n = some o → Tightens o Sat) {a b m : Entry}
    (hreg : ∀ n ∈ a.keys, ∃ o, R.ops n = some o) (h : mergeEntriesIn R a b = .ok m) : ETight n Sat m a ∧ ETight n Sat m b := by
  obtain ⟨h1, h2⟩ := mergeEntriesIn_get hreg h n
  constructor
  · intro x hx
    rcases h2 x hx with ⟨_, h3⟩ | ⟨y, o, z, _, ho, hz, h3⟩
    · exact ⟨x, h3, fun _ h => h⟩
    · exact ⟨z, h3, fun v hv => (ht o ho x y z v hz hv).1⟩
  · intro y hy
    cases ha : a.get n with
    | none => exact ⟨y, by rw [h1 ha, hy], fun _ h => h⟩
    | some x =>
      rcases h2 x ha with ⟨h3, _⟩ | ⟨y', o, z, h3, ho, hz, h4⟩
      · rw [hy] at h3; cases h3
      · rw [hy] at h3; cases h3
        exact ⟨z, h4, fun v hv => (ht o ho x y z v hz hv).2⟩

/-- Policies, attribute by attribute. -/
def PTight (n : OpName) (Sat : Val → Val → Prop) (m p : Policy) : Prop :=
  ∀ k e, AMap.get p k = some e → ∃ e', AMap.get m k = some e' ∧ ETight n Sat e' e

theorem ptight_refl (n : OpName) (Sat : Val → Val → Prop) (p : Policy) : PTight n Sat p p := fun _ e h => ⟨e, h, etight_refl _ _ _⟩

theorem ptight_trans {n : OpName} {Sat : Val → Val → Prop} {a b c : Policy} (h1 : PTight n Sat a b) (h2 : PTight n Sat b c) : PTight n Sat a c := by
  intro k e h
  obtain ⟨e', h3, h4⟩ := h2 k e h
  obtain ⟨e'', h5, h6⟩ := h1 k e' h3
  exact ⟨e'', h5, etight_trans h6 h4⟩

theorem combineLoopIn_get {R : Registry} {s : Policy} : ∀ {p out out' : Policy}, combineLoopIn R s p out = .ok out' →
    ∃ res, out' = out ++ res ∧ ∀ k, (AMap.get p k = none → AMap.get res k = none) ∧
      (∀ x, AMap.get p k = some x → (AMap.get s k = none ∧ AMap.get res k = some x) ∨
        ∃ y z, AMap.get s k = some y ∧ mergeEntriesIn R x y = .ok z ∧ AMap.get res k = some z) := by
  intro p
  induction p with
  | nil =>
    intro out out' h
    exact ⟨[], by rw [List.append_nil]; exact (Except.ok.inj h).symm, fun k => ⟨fun _ => rfl, fun x hx => by cases hx⟩⟩
  | cons kv p ih =>
    obtain ⟨k0, pv⟩ := kv
    intro out out' h
    rw [combineLoopIn] at h
    cases hb : AMap.get s k0 with
    | none =>
      rw [hb] at h
      obtain ⟨res, h1, h2⟩ := ih h
      refine ⟨(k0, pv) :: res, by rw [h1]; simp, fun k => ?_⟩
      rw [get_cons, get_cons]
      split
      · rename_i hk; subst hk
        exact ⟨fun h => (by cases h), fun x hx => .inl ⟨hb, hx⟩⟩
      · exact h2 k
    | some sv =>
      rw [hb] at h
      dsimp only at h
      obtain ⟨z, hz, h⟩ := bind_ok h
      obtain ⟨res, h1, h2⟩ := ih h
      refine ⟨(k0, z) :: res, by rw [h1]; simp, fun k => ?_⟩
      rw [get_cons, get_cons]
      split
      · rename_i hk; subst hk
        refine ⟨fun h => (by cases h), fun x hx => ?_⟩
        cases hx
        exact .inr ⟨sv, z, hb, hz, rfl⟩
      · exact h2 k

theorem registered_get {R : Registry} {p : Policy} (h : Registered R p) {k : String} {e : Entry} (hg : AMap.get p k = some e) :
    ∀ n ∈ e.keys, ∃ o, R.ops n = some o := fun n hn => h n ⟨k, e, get_mem hg, hn⟩

theorem combine_tight {R : Registry} {n : OpName} {Sat : Val → Val → Prop} (ht : ∀ o, R.ops n = some o → Tightens o Sat) {p s m : Policy}
    (hp : Registered R p) (h : combinePolicyIn R p s = .ok m) : PTight n Sat m p ∧ PTight n Sat m s := by
  unfold combinePolicyIn at h
  split at h
  · rename_i hs
    cases Except.ok.inj h
    refine ⟨ptight_refl _ _ _, ?_⟩
    intro k e hk
    cases s with
    | nil => cases hk
    | cons => cases hs
  · split at h
    · rename_i hpe
      cases Except.ok.inj h
      refine ⟨?_, ptight_refl _ _ _⟩
      intro k e hk
      cases p with
      | nil => cases hk
      | cons => cases hpe
    · obtain ⟨out, ho, h⟩ := bind_ok h
      dsimp only at h
      obtain ⟨_, _, h⟩ := bind_ok h
      have h := Except.ok.inj h
      obtain ⟨res, h1, h2⟩ := combineLoopIn_get ho
      rw [List.nil_append] at h1
      subst h1
      have hget : ∀ k, AMap.get m k = (AMap.get out k).or (if (AMap.get out k).isNone then AMap.get s k else none) := by
        intro k
        rw [← h, get_append, get_filter s (fun k => (AMap.get out k).isNone)]
      constructor
      · intro k e hk
        rcases (h2 k).2 e hk with ⟨_, h4⟩ | ⟨y, z, h3, hz, h4⟩
        · exact ⟨e, by rw [hget, h4]; rfl, etight_refl _ _ _⟩
        · exact ⟨z, by rw [hget, h4]; rfl, (merge_tight ht (registered_get hp hk) hz).1⟩
      · intro k e hk
        cases hpk : AMap.get p k with
        | none => exact ⟨e, by rw [hget, (h2 k).1 hpk]; simp [hk], etight_refl _ _ _⟩
        | some x =>
          rcases (h2 k).2 x hpk with ⟨h3, _⟩ | ⟨y, z, h3, hz, h4⟩
          · rw [hk] at h3; cases h3
          · rw [hk] at h3; cases h3
            exact ⟨z, by rw [hget, h4]; rfl, (merge_tight ht (registered_get hp hpk) hz).2⟩

theorem combineRest_tight {R : Registry} {n : OpName} {Sat : Val → Val → Prop} (ht : ∀ o, R.ops n = some o → Tightens o Sat) :
    ∀ {ps : List Policy} {p m : Policy}, Registered R p → (∀ q ∈ ps, Registered R q) → combineRestIn R p ps = .ok m →
      PTight n Sat m p ∧ ∀ q ∈ ps, PTight n Sat m q := by
  intro ps
  induction ps with
  | nil => intro p m _ _ h; cases Except.ok.inj h; exact ⟨ptight_refl _ _ _, by simp⟩
  | cons q ps ih =>
    intro p m hp hq h
    rw [combineRestIn] at h
    obtain ⟨c, hc, h⟩ := bind_ok h
    have hrc : Registered R c := by
      intro k hu
      rcases combinePolicyIn_uses hc hu with hu | hu
      · exact hp k hu
      · exact hq q (by simp) k hu
    obtain ⟨h1, h2⟩ := ih hrc (fun q' hq' => hq q' (List.mem_cons_of_mem _ hq')) h
    obtain ⟨h3, h4⟩ := combine_tight ht hp hc
    refine ⟨ptight_trans h1 h3, ?_⟩
    intro q' hq'
    rcases List.mem_cons.mp hq' with rfl | hq'
    · exact ptight_trans h1 h4
    · exact h2 q' hq'

end Oidfed
