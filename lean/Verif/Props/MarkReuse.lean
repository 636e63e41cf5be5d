import Verif.Lemmas.MarkReuse
import Verif.Props.TrustMark
/-!
# C142: trust mark objects that are used again
-/

namespace Oidfed
open Spec

namespace ExMR

/-- A document with a trust mark. -/
def doc (type jwt : String) : JV := .obj [("trust_mark_type", .str type), ("trust_mark", .str jwt)]

/-- Reads the JWT "m" as a mark of type "tm" without expiry, and "n" as one of type "other"; nothing else is a JWT. -/
def R : JWTReader := fun s =>
  if s = "m" then some ⟨"trust-mark+jwt", [("iss", .str "https://tmi"), ("sub", .str "https://leaf"), ("trust_mark_type", .str "tm")], 7⟩
  else if s = "n" then some ⟨"trust-mark+jwt", [("iss", .str "https://tmi"), ("sub", .str "https://leaf"), ("trust_mark_type", .str "other")], 7⟩
  else none

/-- `TrustMarkInfo{}`. -/
def zero : Info := ⟨"", "", [], none⟩

/-- One variable for two documents: the first is decoded and verified, then the second is decoded, whose JWT is forged. -/
def uses : List InfoUse := [.decode (doc "tm" "m"), .external Ex.sig 0 0 (some [7]) [], .decode (doc "tm" "forged")]

/-- An anchor that issues trust marks itself. -/
def ta : MarkAnchor := ⟨"https://tmi", some [7], none, []⟩

def keysFor : ID → Option (Res Keys) := fun _ => some (.ok (some [7]))

/-- Everything is set before the first verification; afterwards only the type is changed, back and forth. -/
def steady : List InfoUse := [.external Ex.sig 0 0 (some [8]) [], .set "other" "m" [], .federation Ex.sig 0 0 keysFor ta, .decode (doc "tm" "m"), .get]

end ExMR

/-! ## Decoding into an object -/

/-- The strings decoded depend only on the strings before. -/
theorem decodeKnown_strs (tags : List String) (l : JObj) (f g : String → Option JV) (h : ∀ t, strOf (f t) = strOf (g t)) :
    (decodeKnown tags (fun _ cur v => decString cur v) l f = none ∧ decodeKnown tags (fun _ cur v => decString cur v) l g = none) ∨
    ∃ f' g', decodeKnown tags (fun _ cur v => decString cur v) l f = some f' ∧ decodeKnown tags (fun _ cur v => decString cur v) l g = some g' ∧
      ∀ t, strOf (f' t) = strOf (g' t) := by
  induction l generalizing f g with
  | nil => exact .inr ⟨f, g, rfl, rfl, h⟩
  | cons kv l ih =>
    obtain ⟨k, v⟩ := kv
    simp only [decodeKnown]
    cases fieldFor tags k with
    | none => exact ih f g h
    | some t =>
      have step : ∀ x y : Option JV, strOf x = strOf y → ∀ u, strOf (if u = t then x else f u) = strOf (if u = t then y else g u) := by
        intro x y hxy u
        split
        · exact hxy
        · exact h u
      cases v with
      | str s => exact ih _ _ (step _ _ rfl)
      | null => exact ih _ _ (step _ _ (h t))
      | _ => exact .inl ⟨rfl, rfl⟩

/-- Decoding into a new object gives the object that the document describes. -/
theorem decode_fresh (v : JV) : (⟨"", "", [], none⟩ : Info).decode v = (decInfo v).map (fun i => ⟨i.type, i.jwt, i.extra, none⟩) := by
  cases v with
  | null => rfl
  | obj l =>
    simp only [Info.decode, decInfo, unmarshalObj]
    rcases decodeKnown_strs infoTags l (⟨"", "", [], none⟩ : Info).fields (fun _ => none)
      (by intro t; unfold Info.fields; simp only; split; rfl; split <;> rfl) with ⟨h1, h2⟩ | ⟨f, g, h1, h2, h3⟩
    · rw [h1, h2]; rfl
    · rw [h1, h2]
      simp only [Option.map_some, h3]
  | _ => rfl

/-! ## C142 -/

/-- **C142** (part): an object whose JWT stays as it was at the first question about it is accepted by `VerifyExternal` exactly if the JWT it holds is a trust mark of the type it names now
and in order, whatever it was used for before. It is missing that this holds also if the JWT is replaced later (`C142_external_refuted`). -/
theorem C142_external_partial (R : JWTReader) (i : Info) (hi : i.cached = none) (writes uses : List InfoUse) (hw : ∀ u ∈ writes, IsWrite u)
    (hs : JWTStays R (i.run R writes) uses) (sig : SigOracle) (nowM nowD : Time) (keys : Keys) (owners : List Owner) :
    ((i.run R (writes ++ uses)).verifyExternal R sig nowM nowD keys owners).1 = true ↔
      InfoAccepted R sig nowM nowD keys owners.head? (i.run R (writes ++ uses)) :=
  (infoExternal_spec (steady_ok hi hw hs)).1

/-- The same for `VerifyFederation`. -/
theorem C142_federation_partial (R : JWTReader) (i : Info) (hi : i.cached = none) (writes uses : List InfoUse) (hw : ∀ u ∈ writes, IsWrite u)
    (hs : JWTStays R (i.run R writes) uses) (sig : SigOracle) (nowM nowD : Time) (keysFor : ID → Option (Res Keys)) (ta : MarkAnchor) (b : Bool) (i' : Info)
    (hv : (i.run R (writes ++ uses)).verifyFederation R sig nowM nowD keysFor ta = some (.ok (b, i'))) :
    b = true ↔ FederationAccepted R sig nowM nowD keysFor ta (i.run R (writes ++ uses)) :=
  federationAccepted_iff (steady_ok hi hw hs) sig nowM nowD keysFor ta b i' hv

/-- The hypotheses are met: decoded, then verified and with changing types. -/
example : JWTStays ExMR.R (ExMR.zero.run ExMR.R [.decode (ExMR.doc "tm" "m")]) ExMR.steady ∧
    ((ExMR.zero.run ExMR.R ([.decode (ExMR.doc "tm" "m")] ++ ExMR.steady)).verifyExternal ExMR.R Ex.sig 0 0 (some [7]) []).1 = true := by
  refine ⟨?_, rfl⟩
  intro pre post h
  match pre, h with
  | [], _ => rfl
  | [_], h => cases h; rfl
  | [_, _], h => cases h; rfl
  | [_, _, _], h => cases h; rfl
  | [_, _, _, _], h => cases h; rfl
  | [_, _, _, _, _], h => cases h; rfl
  | _ :: _ :: _ :: _ :: _ :: _ :: _, h => cases h

/-- **C142** (part), for every history: what `VerifyExternal` accepts is a JWT that the object held now or at some earlier moment, of the type that it names now and in order now. -/
theorem C142_held_external_partial (R : JWTReader) (i : Info) (hi : i.cached = none) (uses : List InfoUse) (sig : SigOracle) (nowM nowD : Time) (keys : Keys)
    (owners : List Owner) (h : ((i.run R uses).verifyExternal R sig nowM nowD keys owners).1 = true) :
    ∃ pre post, uses = pre ++ post ∧ InfoAccepted R sig nowM nowD keys owners.head? { i.run R uses with jwt := (i.run R pre).jwt } := by
  rcases acts_past (R := R) (i := i) (by intro m hm; rw [hi] at hm; cases hm) uses with h' | ⟨pre, post, e, ha⟩
  · exact ⟨uses, [], by simp, (infoExternal_spec h').1.mp h⟩
  · exact ⟨pre, post, e, (actsAs_external ha sig nowM nowD keys owners).mp h⟩

/-- The same for `VerifyFederation`. -/
theorem C142_held_federation_partial (R : JWTReader) (i : Info) (hi : i.cached = none) (uses : List InfoUse) (sig : SigOracle) (nowM nowD : Time)
    (keysFor : ID → Option (Res Keys)) (ta : MarkAnchor) (i' : Info) (h : (i.run R uses).verifyFederation R sig nowM nowD keysFor ta = some (.ok (true, i'))) :
    ∃ pre post, uses = pre ++ post ∧ FederationAccepted R sig nowM nowD keysFor ta { i.run R uses with jwt := (i.run R pre).jwt } := by
  rcases acts_past (R := R) (i := i) (by intro m hm; rw [hi] at hm; cases hm) uses with h' | ⟨pre, post, e, ha⟩
  · exact ⟨uses, [], by simp, (federationAccepted_iff h' _ _ _ _ _ _ _ h).mp rfl⟩
  · exact ⟨pre, post, e, (actsAs_federation ha _ _ _ _ _ _ _ h).mp rfl⟩

/-- What happens instead: once an object was asked while its JWT was a trust mark, every later verification is about that JWT, whatever is assigned to or decoded into the object. -/
theorem C142_fixed_external (R : JWTReader) (i : Info) (hi : i.cached = none) (p : Mark) (hp : parseMark R i.jwt = some p) (u : InfoUse) (hu : AsksMark u)
    (uses : List InfoUse) (sig : SigOracle) (nowM nowD : Time) (keys : Keys) (owners : List Owner) :
    ((i.run R (u :: uses)).verifyExternal R sig nowM nowD keys owners).1 = true ↔
      InfoAccepted R sig nowM nowD keys owners.head? { i.run R (u :: uses) with jwt := i.jwt } :=
  actsAs_external (actsAs_run (actsAs_asked (by intro m hm; rw [hi] at hm; cases hm) p hp u hu) uses) sig nowM nowD keys owners

/-- The same for `VerifyFederation`. -/
theorem C142_fixed_federation (R : JWTReader) (i : Info) (hi : i.cached = none) (p : Mark) (hp : parseMark R i.jwt = some p) (u : InfoUse) (hu : AsksMark u)
    (uses : List InfoUse) (sig : SigOracle) (nowM nowD : Time) (keysFor : ID → Option (Res Keys)) (ta : MarkAnchor) (b : Bool) (i' : Info)
    (hv : (i.run R (u :: uses)).verifyFederation R sig nowM nowD keysFor ta = some (.ok (b, i'))) :
    b = true ↔ FederationAccepted R sig nowM nowD keysFor ta { i.run R (u :: uses) with jwt := i.jwt } :=
  actsAs_federation (actsAs_run (actsAs_asked (by intro m hm; rw [hi] at hm; cases hm) p hp u hu) uses) sig nowM nowD keysFor ta b i' hv

/-- The hypotheses are met. -/
example : (parseMark ExMR.R (ExMR.zero.run ExMR.R [.decode (ExMR.doc "tm" "m")]).jwt).isSome = true ∧ AsksMark .get := ⟨rfl, trivial⟩

/-- **C142** refuted: one variable is used for two documents. After the mark of the first one was verified, the document with the forged JWT is accepted too, although its JWT is not a trust
mark at all. -/
theorem C142_external_refuted : ∃ (R : JWTReader) (uses : List InfoUse) (sig : SigOracle) (nowM nowD : Time) (keys : Keys) (i : Info),
    i = (⟨"", "", [], none⟩ : Info).run R uses ∧ i.jwt = "forged" ∧ parseMark R i.jwt = none ∧ (i.verifyExternal R sig nowM nowD keys []).1 = true :=
  ⟨ExMR.R, ExMR.uses, Ex.sig, 0, 0, some [7], _, rfl, rfl, rfl, rfl⟩

/-- The same for `VerifyFederation`. -/
theorem C142_federation_refuted : ∃ (R : JWTReader) (uses : List InfoUse) (sig : SigOracle) (nowM nowD : Time) (keysFor : ID → Option (Res Keys)) (ta : MarkAnchor)
    (i i' : Info), i = (⟨"", "", [], none⟩ : Info).run R uses ∧ i.jwt = "forged" ∧ parseMark R i.jwt = none ∧
      i.verifyFederation R sig nowM nowD keysFor ta = some (.ok (true, i')) :=
  ⟨ExMR.R, ExMR.uses, Ex.sig, 0, 0, ExMR.keysFor, ExMR.ta, _, _, rfl, rfl, rfl, rfl⟩

/-- Conversely a good mark is refused: after the variable held a mark of another type, a document with a valid mark is refused. -/
theorem C142_good_refuted : ∃ (R : JWTReader) (uses : List InfoUse) (sig : SigOracle) (nowM nowD : Time) (keys : Keys) (i : Info),
    i = (⟨"", "", [], none⟩ : Info).run R uses ∧ InfoAccepted R sig nowM nowD keys none i ∧ (i.verifyExternal R sig nowM nowD keys []).1 = false :=
  ⟨ExMR.R, [.decode (ExMR.doc "other" "n"), .get, .decode (ExMR.doc "tm" "m")], Ex.sig, 0, 0, some [7], _, rfl,
    ⟨_, rfl, rfl, ⟨.inl rfl, by intro e he; cases he⟩, ⟨[7], 7, rfl, by simp, rfl, rfl⟩, by intro o ho; cases ho⟩, rfl⟩

end Oidfed
