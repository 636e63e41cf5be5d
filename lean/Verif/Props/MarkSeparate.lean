import Verif.Spec.MarkSeparate
import Verif.Props.TrustMark
/-!
# C177: trust marks do not influence each other
-/

namespace Oidfed
open Spec

theorem vf_shift {R : JWTReader} {sig : SigOracle} {t : Time × Time} {K : ID → Option (Res Keys)} {ta : MarkAnchor} :
    ∀ (is : List Info) (n k : Nat), verifiedFederation R sig (fun _ => t) (fun _ => K) ta n is = verifiedFederation R sig (fun _ => t) (fun _ => K) ta k is
  | [], _, _ => rfl
  | i :: is, n, k => by
    unfold verifiedFederation
    rw [vf_shift is (n+1) (k+1)]

theorem validFor_cons (R : JWTReader) (sig : SigOracle) (nowM nowD : Time) (K : ID → Option (Res Keys)) (ta : MarkAnchor) (i : Info) (is r : List Info) :
    validFor R sig nowM nowD K ta (i :: is) = some (.ok r) ↔
      ∃ b i' s, i.verifyFederation R sig nowM nowD K ta = some (.ok (b, i')) ∧ validFor R sig nowM nowD K ta is = some (.ok s) ∧ r = if b then i' :: s else s := by
  unfold validFor
  rw [verifiedFederation, vf_shift is (0+1) 0]
  dsimp only
  cases i.verifyFederation R sig nowM nowD K ta with
  | none => exact ⟨fun h => (by cases h), fun ⟨_, _, _, h, _⟩ => (by cases h)⟩
  | some x =>
    cases x with
    | error f => exact ⟨fun h => (by cases h), fun ⟨_, _, _, h, _⟩ => (by cases h)⟩
    | ok bi =>
      obtain ⟨b, i'⟩ := bi
      dsimp only
      cases verifiedFederation R sig (fun _ => (nowM, nowD)) (fun _ => K) ta 0 is with
      | none => exact ⟨fun h => (by cases h), fun ⟨_, _, _, _, h, _⟩ => (by cases h)⟩
      | some y =>
        cases y with
        | error f => exact ⟨fun h => (by cases h), fun ⟨_, _, _, _, h, _⟩ => (by cases h)⟩
        | ok s =>
          constructor
          · intro h
            cases h
            exact ⟨b, i', s, rfl, rfl, rfl⟩
          · rintro ⟨b', i'', s', h1, h2, rfl⟩
            cases h1
            cases h2
            rfl

/-- **C177** (lists): which trust marks of two lists are found valid does not depend on whether the lists are verified together. -/
theorem C177_lists (R : JWTReader) (sig : SigOracle) (nowM nowD : Time) (K : ID → Option (Res Keys)) (ta : MarkAnchor) (is js r : List Info) :
    validFor R sig nowM nowD K ta (is ++ js) = some (.ok r) ↔
      ∃ r1 r2, validFor R sig nowM nowD K ta is = some (.ok r1) ∧ validFor R sig nowM nowD K ta js = some (.ok r2) ∧ r = r1 ++ r2 := by
  induction is generalizing r with
  | nil =>
    constructor
    · intro h
      exact ⟨[], r, rfl, h, rfl⟩
    · rintro ⟨r1, r2, h1, h2, rfl⟩
      cases h1
      exact h2
  | cons i is ih =>
    rw [List.cons_append, validFor_cons]
    constructor
    · rintro ⟨b, i', s, h1, h2, rfl⟩
      obtain ⟨r1, r2, h3, h4, rfl⟩ := (ih s).mp h2
      refine ⟨_, r2, (validFor_cons ..).mpr ⟨b, i', r1, h1, h3, rfl⟩, h4, ?_⟩
      cases b <;> rfl
    · rintro ⟨r1, r2, h1, h2, rfl⟩
      obtain ⟨b, i', s, h3, h4, rfl⟩ := (validFor_cons ..).mp h1
      refine ⟨b, i', s ++ r2, h3, (ih _).mpr ⟨s, r2, h4, h2, rfl⟩, ?_⟩
      cases b <;> rfl

/-- **C177** (order): nor does it depend on the order of the trust marks. -/
theorem C177_order (R : JWTReader) (sig : SigOracle) (nowM nowD : Time) (K : ID → Option (Res Keys)) (ta : MarkAnchor) (is js : List Info) (h : is.Perm js) (r : List Info)
    (hr : validFor R sig nowM nowD K ta is = some (.ok r)) : ∃ s, validFor R sig nowM nowD K ta js = some (.ok s) ∧ r.Perm s := by
  induction h generalizing r with
  | nil => exact ⟨r, hr, .refl _⟩
  | cons i _ ih =>
    obtain ⟨b, i', s, h1, h2, rfl⟩ := (validFor_cons ..).mp hr
    obtain ⟨s', h3, h4⟩ := ih s h2
    refine ⟨_, (validFor_cons ..).mpr ⟨b, i', s', h1, h3, rfl⟩, ?_⟩
    cases b
    · exact h4
    · exact h4.cons i'
  | swap i j is =>
    obtain ⟨b, j', s, h1, h2, rfl⟩ := (validFor_cons ..).mp hr
    obtain ⟨c, i', s', h3, h4, rfl⟩ := (validFor_cons ..).mp h2
    refine ⟨_, (validFor_cons ..).mpr ⟨c, i', _, h3, (validFor_cons ..).mpr ⟨b, j', s', h1, h4, rfl⟩, rfl⟩, ?_⟩
    cases b <;> cases c
    · exact .refl _
    · exact .refl _
    · exact .refl _
    · exact .swap i' j' s'
  | trans _ _ ih1 ih2 =>
    obtain ⟨s, h1, h2⟩ := ih1 r hr
    obtain ⟨s', h3, h4⟩ := ih2 s h1
    exact ⟨s', h3, h2.trans h4⟩

/-- **C177** (types): whether a trust mark is valid in a federation depends on nothing that the anchor says about other types. -/
theorem C177_type (E : Env) (p : CallPos) (resolve : Req → Option (Res Payload)) (nowM nowD : Time) (ta ta' : MarkAnchor) (i : Info) (h : SameForType ta ta' i.type) :
    i.verifyFederation E.reader E.sig nowM nowD (issuerKeys E p resolve ta') ta' = i.verifyFederation E.reader E.sig nowM nowD (issuerKeys E p resolve ta) ta := by
  have hk : issuerKeys E p resolve ta' = issuerKeys E p resolve ta := by
    funext iss
    unfold issuerKeys
    rw [h.sub, h.jwks]
  have ho : ownersFor ta' i.type = ownersFor ta i.type := by
    unfold ownersFor
    rw [h.owner]
  have ha : ∀ iss, issuerAllowed ta' i.type iss = issuerAllowed ta i.type iss := by
    intro iss
    have key : ∀ a : MarkAnchor, issuerAllowed a i.type iss = match issuersFor a i.type with | none => true | some l => l.contains iss := by
      intro a
      unfold issuerAllowed issuersFor
      cases a.issuers with
      | none => rfl
      | some m => rfl
    rw [key, key, h.issuers]
  unfold Info.verifyFederation
  rw [hk]
  split
  · rfl
  · rename_i m i' _
    split
    · rfl
    · rename_i hm
      have hm : m.type = i.type := by simpa using hm
      have : m.verifyFederation E.reader E.sig nowM nowD (issuerKeys E p resolve ta) ta' = m.verifyFederation E.reader E.sig nowM nowD (issuerKeys E p resolve ta) ta := by
        unfold Mark.verifyFederation
        rw [hm, ha, ho]
      rw [this]

/-- **C177** (keys given): the same when trust marks are verified with given keys. -/
theorem C177_external (R : JWTReader) (sig : SigOracle) (t : Time × Time) (keys : Keys) (owners : List Owner) (n k l : Nat) (is js : List Info) :
    verifiedExternal R sig (fun _ => t) keys owners n (is ++ js) = verifiedExternal R sig (fun _ => t) keys owners k is ++ verifiedExternal R sig (fun _ => t) keys owners l js := by
  have shift : ∀ (is : List Info) (n k : Nat), verifiedExternal R sig (fun _ => t) keys owners n is = verifiedExternal R sig (fun _ => t) keys owners k is := by
    intro is
    induction is with
    | nil => intros; rfl
    | cons i is ih =>
      intro n k
      unfold verifiedExternal
      rw [ih (n+1) (k+1)]
  induction is generalizing n k with
  | nil => exact shift js n l
  | cons i is ih =>
    rw [List.cons_append]
    generalize verifiedExternal R sig (fun _ => t) keys owners l js = r at *
    unfold verifiedExternal
    split
    · rw [List.cons_append, ih (n+1) (k+1)]
    · exact ih (n+1) (k+1)

/-- A mark with a good signature (by key 7) and one with a bad one. -/
def Ex.goodMark : Info := ⟨"tm", "m", [], some ⟨"https://tmi", "https://leaf", "tm", 5, none, "", some 7, none⟩⟩
def Ex.badMark : Info := ⟨"tm2", "n", [], some ⟨"https://tmi", "https://leaf", "tm2", 5, none, "", some 9, none⟩⟩
def Ex.markTA (issuers : Option (AMap (List ID))) : MarkAnchor := ⟨"https://ta", some [1], issuers, []⟩

/-- Together, in another order, and separately. -/
example : validFor (fun _ => none) Ex.sig 10 10 (fun _ => some (.ok (some [7]))) (Ex.markTA none) [Ex.goodMark, Ex.badMark] = some (.ok [Ex.goodMark]) ∧
    validFor (fun _ => none) Ex.sig 10 10 (fun _ => some (.ok (some [7]))) (Ex.markTA none) [Ex.badMark, Ex.goodMark] = some (.ok [Ex.goodMark]) ∧
    validFor (fun _ => none) Ex.sig 10 10 (fun _ => some (.ok (some [7]))) (Ex.markTA none) [Ex.badMark] = some (.ok []) := ⟨rfl, rfl, rfl⟩

/-- Anchors that differ in what they say about another type, and one that does not allow the issuer. -/
example : SameForType (Ex.markTA none) (Ex.markTA (some [("tm2", [])])) "tm" ∧ ¬ SameForType (Ex.markTA none) (Ex.markTA (some [("tm", [])])) "tm" ∧
    validFor (fun _ => none) Ex.sig 10 10 (fun _ => some (.ok (some [7]))) (Ex.markTA (some [("tm", [])])) [Ex.goodMark] = some (.ok []) :=
  ⟨⟨rfl, rfl, rfl, rfl⟩, fun h => (by have := h.issuers; cases this), rfl⟩

end Oidfed
