import Verif.Spec.SignedObj
/-!
# C144: objects are verified by the JWT they came from
-/

namespace Oidfed

open Spec

theorem parse_some {K : SignedKind} {R : JWTReader} {jwt : String} {o : SignedObj} (h : K.parse R jwt = some o) :
    ∃ c, R jwt = some c ∧ c.typ = K.typ ∧ unmarshalObj K.tags K.dec c.payload = some o.shown ∧ o.raw = some c.raw := by
  unfold SignedKind.parse at h
  cases hR : R jwt with
  | none => rw [hR] at h; cases h
  | some c =>
    rw [hR] at h
    dsimp only at h
    by_cases ht : c.typ ≠ K.typ
    · rw [if_pos ht] at h; cases h
    · rw [if_neg ht] at h
      cases hu : unmarshalObj K.tags K.dec c.payload with
      | none => rw [hu] at h; cases h
      | some s =>
        rw [hu] at h
        cases h
        exact ⟨c, rfl, Classical.not_not.mp ht, hu, rfl⟩

theorem decode_raw (K : SignedKind) (o : SignedObj) (l : JObj) : (o.decode K l).raw = o.raw := by
  unfold SignedObj.decode
  cases decodeKnown K.tags K.dec l o.shown.known <;> rfl

/-- Where a message comes from. -/
theorem raw_from (K : SignedKind) (R : JWTReader) (us : List SignedUse) (o : SignedObj) (ho : o.raw = none) (r : Nat) (h : (o.run K R us).raw = some r) :
    ∃ pre jwt post p, us = pre ++ .parse jwt :: post ∧ K.parse R jwt = some p ∧ p.raw = some r ∧ ∀ u ∈ post, Overwrites u ∨ Harmless K R u := by
  suffices hg : ∀ (us : List SignedUse), (o.run K R us).raw = none ∨
      ∃ pre jwt post p, us = pre ++ .parse jwt :: post ∧ K.parse R jwt = some p ∧ p.raw = (o.run K R us).raw ∧ ∀ u ∈ post, Overwrites u ∨ Harmless K R u by
    rcases hg us with h1 | ⟨pre, jwt, post, p, h1, h2, h3, h4⟩
    · rw [h1] at h; cases h
    · exact ⟨pre, jwt, post, p, h1, h2, h3.trans h, h4⟩
  intro us
  have key : ∀ (l : List SignedUse), (o.run K R l.reverse).raw = none ∨
      ∃ pre jwt post p, l.reverse = pre ++ .parse jwt :: post ∧ K.parse R jwt = some p ∧ p.raw = (o.run K R l.reverse).raw ∧
        ∀ u ∈ post, Overwrites u ∨ Harmless K R u := by
    intro l
    induction l with
    | nil => exact .inl ho
    | cons u l ih =>
      have e : o.run K R (u :: l).reverse = (o.run K R l.reverse).after K R u := by
        simp [SignedObj.run, List.foldl_append]
      have keep : (Overwrites u ∨ Harmless K R u) → ((o.run K R l.reverse).after K R u).raw = (o.run K R l.reverse).raw →
          (((o.run K R l.reverse).after K R u).raw = none ∨
            ∃ pre jwt post p, (u :: l).reverse = pre ++ .parse jwt :: post ∧ K.parse R jwt = some p ∧ p.raw = ((o.run K R l.reverse).after K R u).raw ∧
              ∀ u ∈ post, Overwrites u ∨ Harmless K R u) := by
        intro hu hr
        rcases ih with h1 | ⟨pre, jwt, post, p, h1, h2, h3, h4⟩
        · exact .inl (hr.trans h1)
        · refine .inr ⟨pre, jwt, post ++ [u], p, ?_, h2, h3.trans hr.symm, ?_⟩
          · rw [List.reverse_cons, h1]; simp
          · intro v hv
            rcases List.mem_append.mp hv with hv | hv
            · exact h4 v hv
            · rw [List.mem_singleton] at hv; rw [hv]; exact hu
      rw [e]
      cases u with
      | parse jwt =>
        cases hp : K.parse R jwt with
        | none => exact keep (.inr hp) (by simp [SignedObj.after, hp])
        | some p =>
          refine .inr ⟨l.reverse, jwt, [], p, by simp, hp, ?_, by intro u hu; cases hu⟩
          simp [SignedObj.after, hp]
      | decode d => exact keep (.inl trivial) (decode_raw K _ d)
      | assign s => exact keep (.inl trivial) rfl
      | make s => exact .inl rfl
  have := key us.reverse
  rwa [List.reverse_reverse] at this

/-- **C144**: an object that verification accepts was made by parsing a JWT of its kind that is signed with one of the keys; since then the object has only been written to.
For every history of a variable. -/
theorem C144_from_jwt (K : SignedKind) (R : JWTReader) (sig : SigOracle) (keys : Keys) (us : List SignedUse) (h : (SignedObj.zero.run K R us).verify K sig keys = true) :
    ∃ pre jwt post, us = pre ++ .parse jwt :: post ∧ GenuineJWT K R sig keys jwt ∧ ∀ u ∈ post, Overwrites u ∨ Harmless K R u := by
  unfold SignedObj.verify at h
  rw [Bool.and_eq_true] at h
  have h2 := h.2
  unfold verifyRaw at h2
  cases hr : (SignedObj.zero.run K R us).raw with
  | none => rw [hr] at h2; cases h2
  | some r =>
    rw [hr] at h2
    cases hk : keys with
    | none => rw [hk] at h2; cases h2
    | some ks =>
      rw [hk] at h2
      dsimp only at h2
      obtain ⟨pre, jwt, post, p, h3, h4, h5, h6⟩ := raw_from K R us SignedObj.zero rfl r hr
      obtain ⟨c, h7, h8, h9, h10⟩ := parse_some h4
      rw [h10] at h5
      cases h5
      rw [Bool.and_eq_true] at h2
      refine ⟨pre, jwt, post, h3, ⟨c, ks, h7, h8, by rw [h9]; rfl, rfl, ?_, h2.2⟩, h6⟩
      intro he
      rw [he] at h2
      exact absurd h2.1 (by decide)

/-- **C144**: what was only decoded from JSON or made by the caller is never accepted, whatever it shows. -/
theorem C144_nothing_without_jwt (K : SignedKind) (R : JWTReader) (sig : SigOracle) (keys : Keys) (us : List SignedUse) (hn : ∀ u ∈ us, NoJWT K R u) :
    (SignedObj.zero.run K R us).verify K sig keys = false := by
  cases h : (SignedObj.zero.run K R us).verify K sig keys with
  | false => rfl
  | true =>
    obtain ⟨pre, jwt, post, h1, ⟨c, ks, h2, h3, h4, _⟩, _⟩ := C144_from_jwt K R sig keys us h
    have h5 := hn (.parse jwt) (by rw [h1]; simp)
    simp only [NoJWT, SignedKind.parse, h2] at h5
    rw [if_neg (by rw [h3]; simp)] at h5
    cases hu : unmarshalObj K.tags K.dec c.payload with
    | none => rw [hu] at h4; cases h4
    | some s => rw [hu] at h5; cases h5

/-- **C144** (part): an accepted object shows the claims of the signed JWT, provided nothing was decoded into it or assigned to its fields after it was parsed. -/
theorem C144_shows_partial (K : SignedKind) (R : JWTReader) (sig : SigOracle) (keys : Keys) (us : List SignedUse) (hw : ∀ u ∈ us, ¬ Overwrites u)
    (h : (SignedObj.zero.run K R us).verify K sig keys = true) :
    ∃ jwt, GenuineJWT K R sig keys jwt ∧ ShowsJWT K R jwt (SignedObj.zero.run K R us).shown := by
  obtain ⟨pre, jwt, post, h1, h2, h3⟩ := C144_from_jwt K R sig keys us h
  refine ⟨jwt, h2, ?_⟩
  obtain ⟨c, ks, h4, h5, h6, _⟩ := h2
  cases hu : unmarshalObj K.tags K.dec c.payload with
  | none => rw [hu] at h6; cases h6
  | some s =>
    refine ⟨c, h4, ?_⟩
    have hp : K.parse R jwt = some ⟨s, some c.raw⟩ := by
      unfold SignedKind.parse
      rw [h4]
      dsimp only
      rw [if_neg (by rw [h5]; simp), hu]
      rfl
    have hrun : ∀ (l : List SignedUse) (o : SignedObj), (∀ u ∈ l, Harmless K R u) → l.foldl (SignedObj.after K R) o = o := by
      intro l
      induction l with
      | nil => intro o _; rfl
      | cons u l ih =>
        intro o hl
        have hu' := hl u List.mem_cons_self
        rw [List.foldl_cons, ih _ (fun v hv => hl v (List.mem_cons_of_mem _ hv))]
        cases u with
        | parse j => simp only [Harmless] at hu'; simp [SignedObj.after, hu']
        | decode d => cases hu'
        | assign s => cases hu'
        | make s => cases hu'
    rw [hu, h1, SignedObj.run, List.foldl_append, List.foldl_cons, hrun post]
    · simp [SignedObj.after, hp]
    · intro u hm
      rcases h3 u hm with h | h
      · exact absurd h (hw u (by rw [h1]; simp [hm]))
      · exact h

namespace ExSO

def K : SignedKind := ⟨"trust-mark+jwt", markTags, tmDec, fun _ => true⟩

/-- The mark of `https://leaf`. -/
def R : JWTReader := fun s => if s = "m" then some ⟨"trust-mark+jwt", [("sub", .str "https://leaf"), ("iat", .num 5)], 7⟩ else none

def sig : SigOracle := fun ks r => ks.contains r

/-- Parsed, then another object is decoded into it. -/
def uses : List SignedUse := [.parse "m", .decode [("sub", .str "https://mallory")]]

example : ((SignedObj.zero.run K R [.parse "x", .make ⟨fun _ => none, []⟩, .parse "m", .parse "y"]).verify K sig (some [7])) = true := by decide

example : ∀ u ∈ [SignedUse.parse "x", .make ⟨fun _ => none, []⟩, .parse "m", .parse "y"], ¬ Overwrites u := by simp [Overwrites]

example : ∀ u ∈ [SignedUse.parse "x", .decode [("sub", .str "a")], .make ⟨fun _ => none, []⟩], NoJWT K R u := by
  intro u hu
  simp only [List.mem_cons, List.not_mem_nil, or_false] at hu
  rcases hu with rfl | rfl | rfl
  · rfl
  · trivial
  · trivial

end ExSO

/-- **C144** is false for objects into which JSON is decoded after they were parsed: the object shows another subject than any JWT that was ever parsed, and is accepted. -/
theorem C144_shows_refuted : ∃ (K : SignedKind) (R : JWTReader) (sig : SigOracle) (keys : Keys) (us : List SignedUse),
    (SignedObj.zero.run K R us).verify K sig keys = true ∧ ¬ ∃ jwt, ShowsJWT K R jwt (SignedObj.zero.run K R us).shown := by
  refine ⟨ExSO.K, ExSO.R, ExSO.sig, some [7], ExSO.uses, by decide, ?_⟩
  rintro ⟨jwt, c, h1, h2⟩
  unfold ExSO.R at h1
  by_cases hj : jwt = "m"
  · rw [if_pos hj] at h1
    cases h1
    have h3 := congrArg (fun o => o.map (fun s : JStruct => strOf (s.known "sub"))) h2
    exact absurd h3 (by decide)
  · rw [if_neg hj] at h1; cases h1

end Oidfed
