import Verif.Lemmas.Apply
/-! Lemmas about merging entries and policies. -/

namespace Oidfed
open Spec

theorem get_append {α : Type} (m n : AMap α) (k : String) :
    AMap.get (m ++ n) k = (m.get k).or (n.get k) := by
  induction m with
  | nil => rfl
  | cons kv m ih =>
    obtain ⟨k', v⟩ := kv
    rw [List.cons_append, get_cons, get_cons, ih]
    split <;> rfl

theorem get_filter {α : Type} (m : AMap α) (f : String → Bool) (k : String) :
    AMap.get (m.filter (fun kv => f kv.1)) k = if f k then m.get k else none := by
  induction m with
  | nil => simp [AMap.get]
  | cons kv m ih =>
    obtain ⟨k', v⟩ := kv
    by_cases hf : f k' = true
    · rw [List.filter_cons_of_pos (by simpa using hf), get_cons, get_cons, ih]
      by_cases hk : k' = k
      · subst hk; simp [hf]
      · simp [hk]
    · rw [List.filter_cons_of_neg (by simpa using hf), ih, get_cons]
      by_cases hk : k' = k
      · subst hk; simp [hf]
      · simp [hk]

theorem get_mem {α : Type} {m : AMap α} {k : String} {v : α} (h : m.get k = some v) : (k, v) ∈ m := by
  induction m with
  | nil => cases h
  | cons kv m ih =>
    obtain ⟨k', v'⟩ := kv
    rw [get_cons] at h
    split at h
    · rename_i hk; subst hk; cases h; simp
    · exact List.mem_cons_of_mem _ (ih h)

theorem mem_get {α : Type} {m : AMap α} (hw : m.WF) {k : String} {v : α} (h : (k, v) ∈ m) : m.get k = some v := by
  induction m with
  | nil => cases h
  | cons kv m ih =>
    obtain ⟨k', v'⟩ := kv
    unfold AMap.WF AMap.keys at hw
    rw [List.map_cons, List.nodup_cons] at hw
    rw [get_cons]
    rcases List.mem_cons.mp h with h | h
    · cases h; simp
    · rw [if_neg]
      · exact ih hw.2 h
      · rintro rfl
        exact hw.1 (List.mem_map.mpr ⟨(k', v), h, rfl⟩)

/-- The merged value of one operator. -/
def mergedVal (op : OpName) (x y : Option Val) : Option Val :=
  match x, y with
  | none, y => y
  | some x, none => some x
  | some x, some y =>
    match operators op with
    | none => none
    | some o => match o.merge x y with
      | .ok z => some z
      | .error _ => none

theorem mergeLoop_some {b : Entry} : ∀ {a out out' : Entry}, mergeLoop b a out = .ok (some out') →
    ∃ res, out' = out ++ res ∧
      ∀ op, AMap.get res op = (if (a.get op).isSome then mergedVal op (a.get op) (b.get op) else none) := by
  intro a
  induction a with
  | nil =>
    intro out out' h
    have h := Except.ok.inj h
    cases h
    exact ⟨[], by simp, by simp [AMap.get]⟩
  | cons kv a ih =>
    obtain ⟨op, av⟩ := kv
    intro out out' h
    rw [mergeLoop] at h
    cases hb : b.get op with
    | none =>
      rw [hb] at h
      obtain ⟨res, h1, h2⟩ := ih h
      refine ⟨(op, av) :: res, by rw [h1]; simp, ?_⟩
      intro n
      rw [get_cons, get_cons]
      split
      · rename_i hn; subst hn; simp [hb, mergedVal]
      · exact h2 n
    | some bv =>
      rw [hb] at h
      dsimp only at h
      cases ho : operators op with
      | none => rw [ho] at h; cases h
      | some o =>
        rw [ho] at h
        dsimp only at h
        obtain ⟨z, hz, h⟩ := bind_ok h
        obtain ⟨res, h1, h2⟩ := ih h
        refine ⟨(op, z) :: res, by rw [h1]; simp, ?_⟩
        intro n
        rw [get_cons, get_cons]
        split
        · rename_i hn; subst hn; simp [hb, mergedVal, ho, hz]
        · exact h2 n

theorem mergeLoop_ops {b : Entry} : ∀ {a out out' : Entry}, mergeLoop b a out = .ok (some out') →
    ∀ op x y, (op, x) ∈ a → b.get op = some y → ∃ o z, operators op = some o ∧ o.merge x y = .ok z := by
  intro a
  induction a with
  | nil => intro out out' h op x y hm; cases hm
  | cons kv a ih =>
    obtain ⟨op', av⟩ := kv
    intro out out' h op x y hm hy
    rw [mergeLoop] at h
    rcases List.mem_cons.mp hm with hm | hm
    · cases hm
      rw [hy] at h
      dsimp only at h
      cases ho : operators op' with
      | none => rw [ho] at h; cases h
      | some o =>
        rw [ho] at h
        dsimp only at h
        obtain ⟨z, hz, h⟩ := bind_ok h
        exact ⟨o, z, rfl, hz⟩
    · cases hb : b.get op' with
      | none => rw [hb] at h; exact ih h op x y hm hy
      | some bv =>
        rw [hb] at h
        dsimp only at h
        cases ho : operators op' with
        | none => rw [ho] at h; cases h
        | some o =>
          rw [ho] at h
          dsimp only at h
          obtain ⟨z, hz, h⟩ := bind_ok h
          exact ih h op x y hm hy

theorem mergeLoop_of {b : Entry} : ∀ {a : Entry} (out : Entry),
    (∀ op x y, (op, x) ∈ a → b.get op = some y → ∃ o z, operators op = some o ∧ o.merge x y = .ok z) →
    ∃ out', mergeLoop b a out = .ok (some out') := by
  intro a
  induction a with
  | nil => intro out _; exact ⟨out, rfl⟩
  | cons kv a ih =>
    obtain ⟨op, av⟩ := kv
    intro out h
    rw [mergeLoop]
    have hrest : ∀ op x y, (op, x) ∈ a → b.get op = some y → ∃ o z, operators op = some o ∧ o.merge x y = .ok z :=
      fun op x y hm hy => h op x y (List.mem_cons_of_mem _ hm) hy
    cases hb : b.get op with
    | none => exact ih _ hrest
    | some bv =>
      obtain ⟨o, z, ho, hz⟩ := h op av bv (by simp) hb
      dsimp only
      rw [ho]
      dsimp only
      rw [hz]
      exact ih _ hrest

/-- Entries that share no unknown operator. -/
def NoSharedUnknown (a b : Entry) : Prop := ∀ op, Has a op → Has b op → (operators op).isSome = true

theorem mergeLoop_noshared {b : Entry} : ∀ {a out : Entry} {r : Option Entry}, mergeLoop b a out = .ok r →
    NoSharedUnknown a b → a.WF → ∃ out', r = some out' := by
  intro a
  induction a with
  | nil => intro out r h _ _; exact ⟨out, (Except.ok.inj h).symm⟩
  | cons kv a ih =>
    obtain ⟨op, av⟩ := kv
    intro out r h hn hw
    rw [mergeLoop] at h
    have hw' : AMap.WF a := by
      unfold AMap.WF AMap.keys at hw ⊢; rw [List.map_cons, List.nodup_cons] at hw; exact hw.2
    have hn' : NoSharedUnknown a b := by
      rintro op' ⟨v, hv⟩ hb
      refine hn op' ?_ hb
      unfold Has
      rw [get_cons]
      split
      · exact ⟨_, rfl⟩
      · exact ⟨v, hv⟩
    cases hb : b.get op with
    | none => rw [hb] at h; exact ih h hn' hw'
    | some bv =>
      rw [hb] at h
      dsimp only at h
      have := hn op ⟨av, by rw [get_cons, if_pos rfl]⟩ ⟨bv, hb⟩
      cases ho : operators op with
      | none => rw [ho] at this; cases this
      | some o =>
        rw [ho] at h
        dsimp only at h
        obtain ⟨z, hz, h⟩ := bind_ok h
        exact ih h hn' hw'

/-- Lookups in a merged entry. -/
theorem mergeEntries_get {a b m : Entry} (h : mergeEntries a b = .ok m) (hn : NoSharedUnknown a b) (hw : a.WF) :
    ∀ op, m.get op = mergedVal op (a.get op) (b.get op) := by
  unfold mergeEntries at h
  obtain ⟨r, hr, h⟩ := bind_ok h
  obtain ⟨out, rfl⟩ := mergeLoop_noshared hr hn hw
  dsimp only at h
  have h := Except.ok.inj h
  obtain ⟨res, h1, h2⟩ := mergeLoop_some hr
  rw [List.nil_append] at h1
  subst h1
  intro op
  rw [← h, get_append, get_filter b (fun k => (AMap.get out k).isNone)]
  cases ha : a.get op with
  | none =>
    have : AMap.get out op = none := by rw [h2 op, ha]; rfl
    simp [this, mergedVal]
  | some x =>
    have hout : AMap.get out op = mergedVal op (some x) (b.get op) := by rw [h2 op, ha]; rfl
    rw [hout]
    cases hm : mergedVal op (some x) (b.get op) with
    | some z => rfl
    | none =>
      -- the value cannot vanish: the loop succeeded
      exfalso
      cases hb : b.get op with
      | none => rw [hb] at hm; simp [mergedVal] at hm
      | some y =>
        obtain ⟨o, z, ho, hz⟩ := mergeLoop_ops hr op x y (get_mem ha) hb
        rw [hb] at hm
        simp [mergedVal, ho, hz] at hm

/-- When merging two entries succeeds. -/
theorem mergeEntries_ok_iff {a b : Entry} (hn : NoSharedUnknown a b) (hw : a.WF) :
    (∃ m, mergeEntries a b = .ok m) ↔
      ∀ op x y, a.get op = some x → b.get op = some y → ∃ o z, operators op = some o ∧ o.merge x y = .ok z := by
  constructor
  · rintro ⟨m, h⟩ op x y hx hy
    unfold mergeEntries at h
    obtain ⟨r, hr, h⟩ := bind_ok h
    obtain ⟨out, rfl⟩ := mergeLoop_noshared hr hn hw
    exact mergeLoop_ops hr op x y (get_mem hx) hy
  · intro h
    obtain ⟨out, ho⟩ := mergeLoop_of (b := b) (a := a) [] (fun op x y hm hy => h op x y (mem_get hw hm) hy)
    unfold mergeEntries
    rw [ho]
    exact ⟨_, rfl⟩

theorem keys_append {α : Type} (m n : AMap α) : AMap.keys (m ++ n) = m.keys ++ n.keys := by simp [AMap.keys]

theorem filter_keys_wf {α : Type} {m : AMap α} (h : m.WF) (f : String × α → Bool) : AMap.WF (m.filter f) := by
  unfold AMap.WF AMap.keys at h ⊢
  exact h.sublist ((List.filter_sublist).map _)

theorem append_wf {α : Type} {m n : AMap α} (hm : m.WF) (hn : n.WF)
    (hd : ∀ k, k ∈ n.keys → m.get k = none) : AMap.WF (m ++ n) := by
  unfold AMap.WF at *
  rw [keys_append, List.nodup_append]
  refine ⟨hm, hn, ?_⟩
  rintro a ha b hb rfl
  exact (get_none_iff m a).mp (hd a hb) ha

theorem mergeLoop_keys {b : Entry} : ∀ {a out out' : Entry}, mergeLoop b a out = .ok (some out') →
    out'.keys = out.keys ++ a.keys := by
  intro a
  induction a with
  | nil => intro out out' h; have h := Except.ok.inj h; cases h; simp [AMap.keys]
  | cons kv a ih =>
    obtain ⟨op, av⟩ := kv
    intro out out' h
    rw [mergeLoop] at h
    cases hb : b.get op with
    | none =>
      rw [hb] at h
      rw [ih h, keys_append]
      simp [AMap.keys]
    | some bv =>
      rw [hb] at h
      dsimp only at h
      cases ho : operators op with
      | none => rw [ho] at h; cases h
      | some o =>
        rw [ho] at h
        dsimp only at h
        obtain ⟨z, hz, h⟩ := bind_ok h
        rw [ih h, keys_append]
        simp [AMap.keys]

/-- Merged entries have unique keys again. -/
theorem mergeEntries_wf {a b m : Entry} (h : mergeEntries a b = .ok m) (ha : a.WF) (hb : b.WF) : m.WF := by
  unfold mergeEntries at h
  obtain ⟨r, hr, h⟩ := bind_ok h
  cases r with
  | none => cases h; exact List.nodup_nil
  | some out =>
    dsimp only at h
    have h := Except.ok.inj h
    subst h
    have hk := mergeLoop_keys hr
    refine append_wf (by unfold AMap.WF; rw [hk]; exact ha) (filter_keys_wf hb _) ?_
    intro k hk'
    obtain ⟨kv, hkv, rfl⟩ := List.mem_map.mp hk'
    have := (List.mem_filter.mp hkv).2
    simpa using this

/-! ## Policies -/

/-- The merged entry of one attribute. -/
def mergedEntry (x y : Option Entry) : Option Entry :=
  match x, y with
  | none, y => y
  | some x, none => some x
  | some x, some y => match mergeEntries x y with
    | .ok z => some z
    | .error _ => none

theorem combineLoop_ok {sub : Policy} : ∀ {par out out' : Policy}, combineLoop sub par out = .ok out' →
    (∃ res, out' = out ++ res ∧
      ∀ k, AMap.get res k = (if (AMap.get par k).isSome then mergedEntry (AMap.get par k) (AMap.get sub k) else none)) ∧
    (∀ k x y, (k, x) ∈ par → AMap.get sub k = some y → ∃ z, mergeEntries x y = .ok z) ∧
    out'.keys = out.keys ++ par.keys := by
  intro par
  induction par with
  | nil =>
    intro out out' h
    have h := Except.ok.inj h
    cases h
    exact ⟨⟨[], by simp, by simp [AMap.get]⟩, (by intro k x y hm; cases hm), by simp [AMap.keys]⟩
  | cons kv par ih =>
    obtain ⟨k, pv⟩ := kv
    intro out out' h
    rw [combineLoop] at h
    cases hb : AMap.get sub k with
    | none =>
      rw [hb] at h
      obtain ⟨⟨res, h1, h2⟩, h3, h4⟩ := ih h
      refine ⟨⟨(k, pv) :: res, by rw [h1]; simp, ?_⟩, ?_, by rw [h4, keys_append]; simp [AMap.keys]⟩
      · intro n
        rw [get_cons, get_cons]
        split
        · rename_i hn; subst hn; simp [hb, mergedEntry]
        · exact h2 n
      · intro k' x y hm hy
        rcases List.mem_cons.mp hm with hm | hm
        · cases hm; rw [hb] at hy; cases hy
        · exact h3 k' x y hm hy
    | some sv =>
      rw [hb] at h
      dsimp only at h
      obtain ⟨z, hz, h⟩ := bind_ok h
      obtain ⟨⟨res, h1, h2⟩, h3, h4⟩ := ih h
      refine ⟨⟨(k, z) :: res, by rw [h1]; simp, ?_⟩, ?_, by rw [h4, keys_append]; simp [AMap.keys]⟩
      · intro n
        rw [get_cons, get_cons]
        split
        · rename_i hn; subst hn; simp [hb, mergedEntry, hz]
        · exact h2 n
      · intro k' x y hm hy
        rcases List.mem_cons.mp hm with hm | hm
        · cases hm; rw [hb] at hy; cases hy; exact ⟨z, hz⟩
        · exact h3 k' x y hm hy

theorem combineLoop_of {sub : Policy} : ∀ {par : Policy} (out : Policy),
    (∀ k x y, (k, x) ∈ par → AMap.get sub k = some y → ∃ z, mergeEntries x y = .ok z) →
    ∃ out', combineLoop sub par out = .ok out' := by
  intro par
  induction par with
  | nil => intro out _; exact ⟨out, rfl⟩
  | cons kv par ih =>
    obtain ⟨k, pv⟩ := kv
    intro out h
    rw [combineLoop]
    have hrest : ∀ k x y, (k, x) ∈ par → AMap.get sub k = some y → ∃ z, mergeEntries x y = .ok z :=
      fun k x y hm hy => h k x y (List.mem_cons_of_mem _ hm) hy
    cases hb : AMap.get sub k with
    | none => exact ih _ hrest
    | some sv =>
      obtain ⟨z, hz⟩ := h k pv sv (by simp) hb
      dsimp only
      rw [hz]
      exact ih _ hrest

/-- The merge of two non-empty policies: lookups, verification, keys. -/
theorem combinePolicy_nonempty {par sub m : Policy} (hp : par ≠ []) (hs : sub ≠ []) (h : combinePolicy par sub = .ok m) :
    (∀ k, AMap.get m k = mergedEntry (AMap.get par k) (AMap.get sub k)) ∧ Policy.verify m = .ok () ∧
    (∀ k x y, (k, x) ∈ par → AMap.get sub k = some y → ∃ z, mergeEntries x y = .ok z) ∧
    (AMap.WF par → AMap.WF sub → AMap.WF m) ∧ m ≠ [] := by
  unfold combinePolicy at h
  rw [if_neg (by simpa using hs), if_neg (by simpa using hp)] at h
  obtain ⟨out, ho, h⟩ := bind_ok h
  dsimp only at h
  obtain ⟨u, hv, h⟩ := bind_ok h
  have h := Except.ok.inj h
  obtain ⟨⟨res, h1, h2⟩, h3, h4⟩ := combineLoop_ok ho
  rw [List.nil_append] at h1
  subst h1
  refine ⟨?_, by rw [← h]; exact hv, h3, ?_, ?_⟩
  · intro k
    rw [← h, get_append, get_filter sub (fun k => (AMap.get out k).isNone)]
    cases hpk : AMap.get par k with
    | none =>
      have : AMap.get out k = none := by rw [h2 k, hpk]; rfl
      simp [this, mergedEntry]
    | some x =>
      have hout : AMap.get out k = mergedEntry (some x) (AMap.get sub k) := by rw [h2 k, hpk]; rfl
      rw [hout]
      cases hsk : AMap.get sub k with
      | none => rfl
      | some y =>
        obtain ⟨z, hz⟩ := h3 k x y (get_mem hpk) hsk
        simp [mergedEntry, hz]
  · intro hwp hws
    rw [← h]
    refine append_wf (by unfold AMap.WF; rw [h4]; exact hwp) (filter_keys_wf hws _) ?_
    intro k hk'
    obtain ⟨kv, hkv, rfl⟩ := List.mem_map.mp hk'
    have := (List.mem_filter.mp hkv).2
    simpa using this
  · rw [← h]
    intro hc
    have h0 := (List.append_eq_nil_iff.mp hc).1
    rw [h0] at h4
    cases par with
    | nil => exact hp rfl
    | cons kv par => simp [AMap.keys] at h4

theorem policy_verify_iff (p : Policy) : Policy.verify p = .ok () ↔ ∀ kv ∈ p, Entry.verify kv.2 = .ok () := by
  induction p with
  | nil => simp [Policy.verify]
  | cons kv p ih =>
    obtain ⟨k, e⟩ := kv
    rw [Policy.verify, bind_ok_iff, ih]
    simp

theorem policy_verify_get {p : Policy} (h : Policy.verify p = .ok ()) {k : String} {e : Entry}
    (hg : AMap.get p k = some e) : e.verify = .ok () :=
  (policy_verify_iff p).mp h _ (get_mem hg)

end Oidfed
