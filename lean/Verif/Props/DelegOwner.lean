import Verif.Props.MetaResolver
import Verif.Props.TrustMark
/-!
# C145: delegations come from the owner the anchor lists
-/

namespace Oidfed
open Spec

/-- **C145** (part): whatever default resolver is used, if a trust mark of a type for which the anchor lists an owner is accepted, the delegation in it names this owner as its
issuer and the issuer of the mark as the one it is for, and is signed with the owner's keys. Missing: delegations that are verified on their own. -/
theorem C145_in_marks_partial (E : Env) (D : Default) (fuel : Nat) (p : CallPos) (ta : MarkAnchor) (nowM nowD : Time) (i i' : Info) (hi : InfoOk E.reader i)
    (h : i.verifyFederation E.reader E.sig nowM nowD (issuerKeys E p (D.resolve E fuel p) ta) ta = some (.ok (true, i')))
    (o : Owner) (ho : AMap.get ta.owners i.type = some o) :
    ∃ m d, parseMark E.reader i.jwt = some m ∧ parseDelegation E.reader m.delegationJWT = some d ∧ d.iss = o.id ∧ d.sub = m.iss ∧ d.type = i.type ∧ ValidAt nowD d.iat d.exp ∧
      SignedRaw E.sig o.jwks d.raw := by
  obtain ⟨m, keys, h1, h2, _, _, _, _, h3⟩ := C38_allowed_and_delegated_partial E D fuel p ta nowM nowD i i' hi h
  obtain ⟨_, d, h4, h5, h6, h7, h8, h9⟩ := h3 o (by rw [h2]; exact ho)
  exact ⟨m, d, h1, h4, h6, h7, h5.trans h2, h8, h9⟩

/-- **C145** (part): of a delegation that is accepted on its own the anchor lists an owner for the type, whose keys it is signed with; it is accepted whatever issuer and subject it
names. Missing: that it names the owner. -/
theorem C145_alone_partial (sig : SigOracle) (now : Time) (ta : MarkAnchor) (d : Delegation) (h : d.verifyFederation sig now ta = true) :
    (∃ o, AMap.get ta.owners d.type = some o ∧ ValidAt now d.iat d.exp ∧ SignedRaw sig o.jwks d.raw) ∧
    ∀ iss sub, ({ d with iss := iss, sub := sub } : Delegation).verifyFederation sig now ta = true := by
  obtain ⟨h1, o, h2, h3⟩ := (C37_delegation sig now ta d).mp h
  exact ⟨⟨o, h2, h1, h3⟩, fun iss sub => h⟩

namespace ExDO

/-- A mark of `https://tmi` with a delegation in the name of somebody else, signed with the key of the owner of another type. -/
def reader : JWTReader := fun j =>
  if j = "m" then some ⟨"trust-mark+jwt", [("iss", .str "https://tmi"), ("sub", .str "https://leaf"), ("trust_mark_type", .str "tm"), ("delegation", .str "d")], 1⟩
  else if j = "d" then some ⟨"trust-mark-delegation+jwt", [("iss", .str "https://other"), ("sub", .str "https://tmi"), ("trust_mark_type", .str "tm"), ("iat", .num 10), ("exp", .num 1000)], 2⟩
  else if j = "m2" then some ⟨"trust-mark+jwt", [("iss", .str "t"), ("sub", .str "https://leaf"), ("trust_mark_type", .str "tm"), ("delegation", .str "d2")], 1⟩
  else if j = "d2" then some ⟨"trust-mark-delegation+jwt", [("iss", .str "https://owner"), ("sub", .str "t"), ("trust_mark_type", .str "tm")], 2⟩
  else none

/-- Key 7 made message 1, key 8 made message 2. -/
def sig : SigOracle := fun ks raw => raw = 1 ∧ 7 ∈ ks ∨ raw = 2 ∧ 8 ∈ ks

/-- The anchor lists an owner for the type. -/
def anchor : MarkAnchor := ⟨"t", some [7], none, [("tm", ⟨"https://owner", some [8]⟩)]⟩

/-- The examples' world with these JWTs. -/
def E : Env := { Ex.EEvil with reader := reader, sig := sig }

/-- A mark of the anchor itself with a proper delegation. -/
def info : Info := { Ex.info with type := "tm", jwt := "m2" }

end ExDO
open ExDO

/-- **C145 fails** for a delegation on its own: the delegation in a trust mark names somebody else as its issuer, and is accepted by `DelegationJWT.VerifyFederation`, although the
mark is not accepted with the owner. -/
theorem C145_other_issuer_refuted : ¬ ∀ (R : JWTReader) (sig : SigOracle) (now : Time) (ta : MarkAnchor) (m : Mark) (jwt : String) (d : Delegation) (o : Owner),
    parseMark R jwt = some m → parseDelegation R m.delegationJWT = some d → d.verifyFederation sig now ta = true → AMap.get ta.owners d.type = some o → d.iss = o.id := by
  intro h
  have := h reader sig (20 * second) anchor _ "m" _ _ rfl rfl (by decide +kernel) rfl
  revert this
  decide

/-- The hypotheses of `C145_in_marks_partial` are met. -/
example : (∃ i', info.verifyFederation E.reader E.sig (20 * second) (20 * second) (issuerKeys E [] (Default.loc.resolve E 1 []) anchor) anchor = some (.ok (true, i'))) ∧
    InfoOk E.reader info ∧ AMap.get anchor.owners info.type = some ⟨"https://owner", some [8]⟩ := by
  refine ⟨⟨_, rfl⟩, ?_, rfl⟩
  intro m h
  cases h

/-- Those of `C145_alone_partial` too. -/
example : ∃ d, parseDelegation reader "d2" = some d ∧ d.verifyFederation sig (20 * second) anchor = true := ⟨_, rfl, by decide +kernel⟩

end Oidfed
