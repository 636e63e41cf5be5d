import Verif.Lemmas.Idem
import Verif.Model.Metadata
/-!
# Properties C19, C26, C27, C28, C62: verifying and applying one policy entry
-/

namespace Oidfed
open Spec

/-! ## C19 -/

/-- C19 as stated is false: an absent list-valued attribute passes `essential`. (The zero value of a Go slice field is a
nil slice, which `essential` does not treat as missing.) -/
theorem C19_restrictions_refuted :
    ¬ ∀ (p : Entry) (v : Val) (isSet : Bool) (v' : Val), p.verify = .ok () → (isSet = false → Unset v) →
      p.applyTo v isSet = .ok v' → Obeys p isSet v' ∧ EssentialOk p v' := by
  intro h
  have := h [("essential", .bool true)] (.slice .str true []) false (.slice .str true []) rfl (fun _ => .slice _ _) rfl
  exact this.2 rfl (.slice _ _)

/-- C19: applying a (valid) entry to an attribute value either fails or gives a value that obeys the entry; an essential
attribute that is not a list has a value. Missing: `essential` on lists (refuted above); entries that `Verify` rejects. -/
theorem C19_restrictions_partial (p : Entry) (v : Val) (isSet : Bool) (v' : Val) (hv : p.verify = .ok ())
    (hflag : isSet = false → Unset v) (h : p.applyTo v isSet = .ok v') :
    Obeys p isSet v' ∧ ((∀ e n xs, v' ≠ .slice e n xs) → EssentialOk p v') := by
  unfold Entry.applyTo at h
  cases hc : p.applyCur ⟨v, isSet⟩ with
  | error f => rw [hc] at h; simp [Except.map] at h
  | ok c' =>
    rw [hc] at h
    simp only [Except.map] at h
    have h := Except.ok.inj h
    subst h
    obtain ⟨h1, h2⟩ := obeys_of_apply hv (c := ⟨v, isSet⟩) hflag hc
    refine ⟨h1, ?_⟩
    intro hns hess
    rcases h2 hess with h2 | h2
    · cases hcv : c'.v with
      | slice e n xs => exact absurd hcv (hns e n xs)
      | _ => rw [hcv] at h2; simp [Val.isSlice] at h2
    · exact h2

/-- A string list `["a", "b"]` as decoded from JSON policies. -/
def jl (xs : List String) : Val := .slice .any false (xs.map Val.str)

/-- A string list as held in a struct field. -/
def sl (xs : List String) : Val := .slice .str false (xs.map Val.str)

/-- An entry with all of add, subset_of, superset_of, essential on a list that is cut and extended. -/
example : Entry.verify [("add", jl ["b"]), ("subset_of", jl ["a", "b"]), ("superset_of", jl ["a"]),
      ("essential", .bool true)] = .ok () ∧
    Entry.applyTo [("add", jl ["b"]), ("subset_of", jl ["a", "b"]), ("superset_of", jl ["a"]), ("essential", .bool true)]
      (sl ["z", "a"]) true = .ok (sl ["a", "b"]) := ⟨rfl, rfl⟩

/-- `value` with a default, and `one_of` on a scalar. -/
example : Entry.verify [("value", jl ["a"]), ("default", jl ["b"])] = .ok () ∧
    Entry.applyTo [("value", jl ["a"]), ("default", jl ["b"])] (sl ["z"]) true = .ok (sl ["a"]) ∧
    Entry.verify [("one_of", jl ["a", "b"]), ("default", .str "a")] = .ok () ∧
    Entry.applyTo [("one_of", jl ["a", "b"]), ("default", .str "a")] (.str "") false = .ok (.str "a") :=
  ⟨rfl, rfl, rfl, rfl⟩

/-- Without `Verify` the restrictions need not hold: `value: [a]` with `add: [b]` gives `[a, b]`. Such an entry is rejected
by `Verify`, see C23 for the paths on which it is not called. -/
example : Entry.verify [("value", jl ["a"]), ("add", jl ["b"])] = .error .error ∧
    Entry.applyTo [("value", jl ["a"]), ("add", jl ["b"])] (sl []) true = .ok (sl ["a", "b"]) := ⟨rfl, rfl⟩

/-! ## C26 -/

/-- C26 as stated is false: a null `value` lies within every `subset_of`, but `Verify` panics on it. -/
theorem C26_verify_exact_refuted :
    ¬ ∀ p : Entry, KnownOps p → (p.verify = .ok () ↔ Allowed p) := by
  intro h
  have hk : KnownOps [("value", .nil), ("subset_of", jl ["a"])] := by
    rintro n ⟨v, hv⟩
    simp only [AMap.get] at hv
    split at hv
    · rename_i h; exact .inl h.symm
    · split at hv
      · rename_i h; exact .inr (.inr (.inr (.inr (.inl h.symm))))
      · cases hv
  have := (h _ hk).mpr ⟨(by rintro ⟨v, hv⟩; cases hv), (by intro s hs; cases hs), (by intro s t hs; cases hs),
    (by intro s t hs; cases hs), (by intro s t hs; cases hs), (by
      intro s t hs ht x hx
      cases hs
      cases hx), (by rintro ⟨v, hv⟩; cases hv)⟩
  cases this

/-- C26: on known operators `Verify` accepts exactly the allowed combinations without null operands of an inclusion check.
Missing: null operands (see the refutation). -/
theorem C26_verify_exact_partial (p : Entry) (hk : KnownOps p) :
    p.verify = .ok () ↔ Allowed p ∧ NoNull p := verify_iff_allowed hk

/-- Both sides occur. -/
example : Entry.verify [("value", jl ["a"]), ("subset_of", jl ["a", "b"])] = .ok () ∧
    Entry.verify [("value", jl ["c"]), ("subset_of", jl ["a", "b"])] = .error .error ∧
    Entry.verify [("one_of", jl ["c"]), ("add", jl ["c"])] = .error .error ∧
    Entry.verify [("one_of", jl [])] = .error .error ∧
    Entry.verify [("value", .nil), ("default", jl ["a"])] = .error .error := ⟨rfl, rfl, rfl, rfl, rfl⟩

/-! ## C27 -/

theorem get_filter_ne (p : Entry) (k n : String) :
    AMap.get (p.filter (fun kv => kv.1 ≠ k)) n = if n = k then none else p.get n := by
  induction p with
  | nil => simp [AMap.get]
  | cons kv p ih =>
    obtain ⟨k', v⟩ := kv
    by_cases hk : k' = k
    · rw [List.filter_cons_of_neg (by simp [hk]), ih, get_cons]
      by_cases hn : n = k
      · simp [hn]
      · simp [hn, hk, Ne.symm hn]
    · rw [List.filter_cons_of_pos (by simp [hk]), get_cons, ih, get_cons]
      by_cases hn : n = k
      · subst hn; simp [hk]
      · simp [hn]

/-- C27 (default): on an attribute the entity has set, `default` has no influence at all, whatever other operators the entry
has – as long as it is not removed by a null `value`, a combination `Verify` rejects. -/
theorem C27_default_never_overrides (p : Entry) (v : Val) (hv : v ≠ .nil) (hp : p.get "value" ≠ some .nil) :
    p.applyTo v true = Entry.applyTo (p.filter (fun kv => kv.1 ≠ "default")) v true := by
  have hg : ∀ n, n ≠ "default" → AMap.get (p.filter (fun kv => kv.1 ≠ "default")) n = p.get n := by
    intro n hn; rw [get_filter_ne, if_neg hn]
  have he : Entry.essential (p.filter (fun kv => kv.1 ≠ "default")) = p.essential := by
    unfold Entry.essential
    rw [hg _ (by decide)]
  have hs : ∀ n, n ≠ "default" → ∀ c, applyStep (p.filter (fun kv => kv.1 ≠ "default")) p.essential c n =
      applyStep p p.essential c n := by
    intro n hn c
    unfold applyStep
    rw [hg n hn]
  unfold Entry.applyTo Entry.applyCur operatorOrder
  rw [he]
  simp only [applyLoop]
  rw [hs opValue (by decide)]
  congr 1
  cases h1 : applyStep p p.essential ⟨v, true⟩ opValue with
  | error f => rfl
  | ok c1 =>
    have hc1 : c1.isSet = true ∧ c1.v ≠ .nil := by
      replace h1 : optStep (p.get opValue) (applyValue ⟨v, true⟩) ⟨v, true⟩ = .ok c1 := h1
      cases hgv : p.get opValue with
      | none => rw [hgv] at h1; rw [optStep_none h1]; exact ⟨rfl, hv⟩
      | some s =>
        rw [hgv] at h1
        rcases applyValue_ok h1 with ⟨rfl, _⟩ | ⟨_, h, h', _⟩
        · exact absurd hgv hp
        · exact ⟨h, h'⟩
    simp only [bind, Except.bind]
    rw [hs opAdd (by decide)]
    cases h2 : applyStep p p.essential c1 opAdd with
    | error f => rfl
    | ok c2 =>
      have hc2 : c2.isSet = true := by
        replace h2 : optStep (p.get opAdd) (applyAdd c1) c1 = .ok c2 := h2
        cases hga : p.get opAdd with
        | none => rw [hga] at h2; rw [optStep_none h2]; exact hc1.1
        | some a =>
          rw [hga] at h2
          rcases applyAdd_ok h2 with ⟨h, _⟩ | ⟨_, _, rfl⟩ | ⟨_, _, h, _⟩
          · exact absurd h hc1.2
          · exact hc1.1
          · exact h
      have hd : applyStep p p.essential c2 opDefault = .ok c2 := by
        show optStep (p.get opDefault) (applyDefault c2) c2 = .ok c2
        cases hgd : p.get opDefault with
        | none => rfl
        | some d => show applyDefault c2 d = .ok c2; unfold applyDefault; simp [hc2]
      have hd' : applyStep (p.filter (fun kv => kv.1 ≠ "default")) p.essential c2 opDefault = .ok c2 := by
        unfold applyStep
        rw [get_filter_ne, if_pos (show opDefault = "default" from rfl)]
      simp only [hd, hd']
      rw [hs opOneOf (by decide)]
      cases applyStep p p.essential c2 opOneOf with
      | error f => rfl
      | ok c4 =>
        simp only
        rw [hs opSubsetOf (by decide)]
        cases applyStep p p.essential c4 opSubsetOf with
        | error f => rfl
        | ok c5 =>
          simp only
          rw [hs opSupersetOf (by decide)]
          cases applyStep p p.essential c5 opSupersetOf with
          | error f => rfl
          | ok c6 =>
            simp only
            rw [hs opEssential (by decide)]

/-- The elements the entity itself gave. -/
def given (isSet : Bool) (v : Val) : List Val := if isSet then v.elems else []

/-- C27 (add) as stated is false: adding to an absent string attribute (for instance `scope`) also adds the empty string. -/
theorem C27_add_exact_refuted :
    ¬ ∀ (a v : Val) (isSet : Bool) (v' : Val), (isSet = false → Unset v) → a ≠ .nil →
      Entry.applyTo [("add", a)] v isSet = .ok v' →
      ∀ x, x ∈ v'.elems ↔ x ∈ given isSet v ∨ x ∈ a.elems := by
  intro h
  have := h (jl ["a"]) (.str "") false (sl ["", "a"]) (fun _ => .str) (by simp [jl]) rfl (.str "")
  have := this.mp (by decide)
  revert this
  decide

/-- C27 (add): `add` keeps the given values in their order and adds exactly the missing ones, without introducing duplicates.
Missing: absent scalar attributes (refuted above), for absent lists the elements of the zero value are none. -/
theorem C27_add_exact_partial (a v : Val) (isSet : Bool) (v' : Val) (hv : v ≠ .nil) (ha : a ≠ .nil)
    (hu : isSet = true ∨ v.elems = []) (h : Entry.applyTo [("add", a)] v isSet = .ok v') :
    given isSet v <+: v'.elems ∧ (∀ x, x ∈ v'.elems ↔ x ∈ given isSet v ∨ x ∈ a.elems) ∧
    (v.elems.Nodup → a.elems.Nodup → v'.elems.Nodup) := by
  unfold Entry.applyTo at h
  cases hc : Entry.applyCur [("add", a)] ⟨v, isSet⟩ with
  | error f => rw [hc] at h; simp [Except.map] at h
  | ok c' =>
    rw [hc] at h
    simp only [Except.map] at h
    have h := Except.ok.inj h
    subst h
    obtain ⟨c1, c2, c3, c4, c5, c6, h1, h2, h3, h4, h5, h6, h7⟩ := applyCur_steps hc
    have e1 := optStep_none h1
    have e3 := optStep_none h3
    have e4 := optStep_none h4
    have e5 := optStep_none h5
    have e6 := optStep_none h6
    have e7 := optStep_none h7
    rw [e7, e6, e5, e4, e3]
    rw [e1] at h2
    have hgv : given isSet v = v.elems := by
      unfold given
      rcases hu with hu | hu
      · rw [hu]; rfl
      · rw [hu]; split <;> rfl
    rcases applyAdd_ok h2 with ⟨hn, _⟩ | ⟨_, hn, _⟩ | ⟨_, _, _, sa, n, _, hr, _⟩
    · exact absurd hn hv
    · exact absurd hn ha
    · rw [hr, hgv]
      exact ⟨unionElems_prefix _ _, fun x => unionElems_mem _ _ x, fun h1 h2 => unionElems_nodup h1 h2⟩

example : Entry.applyTo [("add", jl ["b", "a"])] (sl ["z", "a"]) true = .ok (sl ["z", "a", "b"]) ∧
    Entry.applyTo [("default", jl ["b"])] (sl []) true = .ok (sl []) ∧
    Entry.applyTo [("default", jl ["b"]), ("essential", .bool true)] (.slice .str true []) false = .ok (sl ["b"]) :=
  ⟨rfl, rfl, rfl⟩

/-! ## C28 -/

/-- C28 for one attribute: applying a valid entry to the outcome of applying it (value and set flag) changes nothing. -/
theorem C28_entry_idempotent_partial (p : Entry) (hv : p.verify = .ok ()) (c c' : Cur) (hc : c.v ≠ .nil)
    (h : p.applyCur c = .ok c') : p.applyCur c' = .ok c' := idem_core hv hc h

/-- C28 is false for metadata structs: the struct remembers which attributes the *entity* set, not which ones a policy set,
so an attribute filled by `default` counts as absent when the same policy is applied to the result. -/
theorem C28_metadata_idempotent_refuted :
    ¬ ∀ (p : Policy) (m m' : EntityMeta), p.verify = .ok () → m.apply p = .ok m' → m'.apply p = .ok m' := by
  intro h
  have := h [("a", [("default", .str "x"), ("one_of", jl ["x"]), ("essential", .bool true)])]
    ⟨[⟨"A", "a", .str, .str ""⟩], [], []⟩ ⟨[⟨"A", "a", .str, .str "x"⟩], [], []⟩ rfl rfl
  cases this

example : Entry.applyCur [("add", jl ["b"]), ("subset_of", jl ["a", "b"])] ⟨sl ["z", "a"], true⟩ = .ok ⟨sl ["a", "b"], true⟩
    := rfl

/-! ## C62 -/

/-- C62 is false: an attribute that is present with the value `false` (or `0`, or the empty string) is rejected as missing. -/
theorem C62_essential_present_refuted :
    ¬ ∀ (v : Val), v ≠ .nil → Entry.applyTo [("essential", .bool true)] v true = .ok v := by
  intro h
  have := h (.bool false) (by simp)
  cases this

/-- C62 where it holds: an attribute that is present and not the zero value of its type passes `essential`. -/
theorem C62_essential_present_partial (v : Val) (isSet : Bool) (hv : ¬ Unset v) :
    Entry.applyTo [("essential", .bool true)] v isSet = .ok v := by
  have hz : (v.isNilIface || v.isZero) = false := by
    cases hb : (v.isNilIface || v.isZero)
    · rfl
    · exact absurd ((isZero_iff v).mp hb) hv
  simp only [Bool.or_eq_false_iff] at hz
  have : Entry.applyTo [("essential", .bool true)] v isSet = (applyEssential ⟨v, isSet⟩ (.bool true)).map Cur.v := by
    show (((applyEssential ⟨v, isSet⟩ (.bool true)) >>= fun c => Except.ok c).map Cur.v) = _
    cases applyEssential ⟨v, isSet⟩ (.bool true) <;> rfl
  rw [this]
  have h1 : (Val.bool true).isNilIface = false := rfl
  simp only [applyEssential, hz.1, hz.2, h1, Bool.and_false, Bool.or_false, Bool.false_eq_true, if_false, Except.map]

example : ¬ Unset (.bool true) ∧ ¬ Unset (sl []) := ⟨(by intro h; cases h), (by intro h; cases h)⟩

end Oidfed
