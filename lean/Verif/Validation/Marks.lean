import Verif.Model.TrustMark
/-!
# The library's own tests of trust marks, run on the model

The owner, issuers and trust anchor of `trustmark_test.go:14-131`. The key of the owner is 1, those of the two issuers are 2 and 3, another key is 4; the number of a message is the key it was
signed with. A JWT is given by a name, and the reader knows the contents. These are tests of the model, not proofs of properties.
-/

namespace Oidfed.Validation.Marks
open Oidfed

def hour : Int := 3600000000000
def now : Time := 1000000000000

def spec (type : String) (delegation : String) : MarkSpec := ⟨type, hour, "", "", [], false, delegation⟩

/-- `tmi1` with the delegated mark added in `init`. -/
def tmi1 : MarkIssuer :=
  (newMarkIssuer "https://tmi.example.org" (fun _ _ => some "mark") [spec "https://trustmarks.org/tm1" "",
    ⟨"https://trustmarks.org/tm2", hour, "https://trustmarks.org/tm2/info", "https://trustmarks.org/tm2/logo", [], false, ""⟩, spec "https://trustmarks.org/tm3" "",
    spec "https://trustmarks.org/tm4" "", spec "https://trustmarks.org/tm-delegated" ""]).add (spec "https://trustmarks.org/test" "delegation")

def tmi2 : MarkIssuer :=
  newMarkIssuer "https://tmi2.example.com" (fun _ _ => some "mark") [
    ⟨"https://trustmarks.org/tm1", 0, "https://trustmarks.org/tm1/info", "https://trustmarks.org/tm1/logo", [("foo", .str "bar")], false, ""⟩,
    ⟨"https://trustmarks.org/tm2", 0, "https://trustmarks.org/tm2/info", "https://trustmarks.org/tm2/logo", [("foo", .str "bar")], true, ""⟩,
    spec "https://trustmarks.org/tm-delegated" ""]

def tmo : MarkOwner := ⟨"https://tmo.example.eu", fun _ _ => some "delegation",
  [⟨"https://trustmarks.org/tm-delegated", 24 * hour, "", [("key", .str "value")]⟩, ⟨"https://trustmarks.org/test", 0, "", []⟩, ⟨"https://trustmarks.org/invalid", 0, "", []⟩,
   ⟨"https://trustmarks.org/other", 0, "", []⟩]⟩

def ta : MarkAnchor where
  sub := "https://trustmark.ta.com"
  jwks := some [9]
  issuers := some [("https://trustmarks.org/tm1", ["https://tmi.example.org", "https://tmi2.example.org"]), ("https://trustmarks.org/tm-delegated", ["https://tmi.example.org"]),
    ("https://trustmarks.org/test", ["https://tmi.example.org"]), ("https://trustmarks.org/tm4", ["https://tmi2.example.org"])]
  owners := [("https://trustmarks.org/tm-delegated", ⟨"https://tmo.example.eu", some [1]⟩), ("https://trustmarks.org/test", ⟨"https://tmo.example.eu", some [1]⟩),
    ("https://trustmarks.org/other", ⟨"https://other.owner.org", some [4]⟩)]

def sig : SigOracle := fun ks n => ks.contains n

/-- The delegation for `type` and `sub` as it is parsed. -/
def delegation (type sub : String) (custom : List Int) : Option Delegation := do
  let _ ← tmo.delegate now type sub custom
  let s ← tmo.spec type
  parseDelegation (fun _ => some ⟨"trust-mark-delegation+jwt", tmo.payload s now sub custom, 1⟩) "delegation"

/-! ## TestTrustMarkOwner_DelegationJWT (trustmark_test.go:133-230) -/

def delegationOk (type sub : String) (custom : List Int) (lifetime : Option Int) : Bool :=
  match delegation type sub custom with
  | none => false
  | some d => d.type == type && d.sub == sub && d.exp == lifetime.map (fun l => d.iat + l) && d.verifyExternal sig now (some [1])

example : delegationOk "https://trustmarks.org/test" "https://example.org" [] none = true := by decide +kernel
example : delegationOk "https://trustmarks.org/tm-delegated" "https://example.org" [] (some (24 * hour)) = true := by decide +kernel
example : delegationOk "https://trustmarks.org/tm-delegated" "https://example.org" [60000000000] (some 60000000000) = true := by decide +kernel

/-! ## TestDelegationJWT_VerifyExternal (trustmark_test.go:232-292): the right key, a message with a wrong signature, the wrong key -/

example : ((delegation "https://trustmarks.org/test" "foobar" []).map (fun d => (d.verifyExternal sig now (some [1]), { d with raw := some 7 }.verifyExternal sig now (some [1]),
    d.verifyExternal sig now (some [4])))) = some (true, false, false) := by decide +kernel

/-! ## TestDelegationJWT_VerifyFederation (trustmark_test.go:294-348) -/

def delegationInFederation (type : String) : Option Bool := (delegation type "foobar" []).map (fun d => d.verifyFederation sig now ta)

example : delegationInFederation "https://trustmarks.org/tm-delegated" = some true := by decide +kernel
example : delegationInFederation "https://trustmarks.org/test" = some true := by decide +kernel
example : delegationInFederation "https://trustmarks.org/invalid" = some false := by decide +kernel
example : delegationInFederation "https://trustmarks.org/other" = some false := by decide +kernel

/-! ## TestTrustMarkIssuer_IssueAndVerifyTrustMark (trustmark_test.go:350-492) -/

/-- What the JWTs contain: the mark as issued, signed with `key`, and the delegation made in `init`. -/
def reader (I : MarkIssuer) (key : Nat) (type : String) (custom : List Int) : JWTReader := fun jwt =>
  if jwt = "mark" then (I.spec type).map (fun s => ⟨"trust-mark+jwt", I.payload s now "foobar" custom, key⟩)
  else if jwt = "delegation" then (tmo.spec "https://trustmarks.org/test").map (fun s => ⟨"trust-mark-delegation+jwt", tmo.payload s now "https://tmi.example.org" [], 1⟩)
  else none

def keysFor : ID → Option (Res Keys) := fun id =>
  if id = "https://tmi.example.org" then some (.ok (some [2])) else if id = "https://tmi2.example.com" then some (.ok (some [3])) else some (.error .error)

/-- `none` if issuing fails, else whether the expiry is as expected, and whether the mark verifies. -/
def issueAndVerify (I : MarkIssuer) (key : Nat) (type : String) (custom : List Int) (lifetime : Int) : Option (Bool × Bool) :=
  match I.issue now type "foobar" custom with
  | none => none
  | some i =>
    match i.trustMark (reader I key type custom) with
    | (none, _) => none
    | (some m, i) =>
      match i.verifyFederation (reader I key type custom) sig now now keysFor ta with
      | some (.ok (b, _)) => some (m.exp == some (m.iat + lifetime), b)
      | _ => none

example : issueAndVerify tmi1 2 "https://trustmarks.org/tm1" [] hour = some (true, true) := by decide +kernel
example : issueAndVerify tmi1 2 "https://trustmarks.org/tm1" [2 * hour] (2 * hour) = some (true, true) := by decide +kernel
example : issueAndVerify tmi1 2 "https://trustmarks.org/unknown" [] hour = none := by decide +kernel
example : issueAndVerify tmi1 2 "https://trustmarks.org/tm3" [] hour = some (true, true) := by decide +kernel
example : issueAndVerify tmi1 2 "https://trustmarks.org/tm4" [] hour = some (true, false) := by decide +kernel
example : issueAndVerify tmi1 2 "https://trustmarks.org/tm-delegated" [] hour = some (true, false) := by decide +kernel
example : issueAndVerify tmi1 2 "https://trustmarks.org/test" [] hour = some (true, true) := by decide +kernel
example : issueAndVerify tmi2 3 "https://trustmarks.org/tm-delegated" [] hour = some (true, false) := by decide +kernel

end Oidfed.Validation.Marks
