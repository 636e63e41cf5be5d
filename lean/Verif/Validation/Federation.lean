import Verif.Validation.Vectors
import Verif.Model.Resolver
import Verif.Model.ChainFilter
/-!
# The mock federation of the library's own tests, run on the model

The entities of `trustchainfilter_test.go:12-167` with what the mocks make of them (mock_authority.go, mock_rp.go, mock_op.go, mock_proxy.go): statements are given in JSON and decoded. A
statement is signed with the key of its issuer. The tests are those of `trustresolver_test.go`, `trustchainfilter_test.go` and `trustchain_test.go`. These are tests of the model, not proofs of
properties.
-/

namespace Oidfed.Validation
open Oidfed

/-- Keys are not read from JSON here, see `Entity.stmt`. -/
def codec : KeyCodec := ⟨fun _ => .null, fun _ => none⟩

/-- A mock entity; its key is the number `key`. -/
structure Entity where
  id : ID
  key : Nat
  hints : List ID
  metadata : JObj
  /-- `metadata_policy`, `metadata_policy_crit`, `constraints` that a mock authority puts in its own configuration and in all statements about subordinates. -/
  claims : JObj

def strs (l : List String) : JV := .arr (l.map .str)

def leaf (id : ID) (key : Nat) (hints : List ID) (metadata : JObj) : Entity :=
  ⟨id, key, hints, ("federation_entity", .obj [("organization_name", .str "Organization: 01234567")]) :: metadata, []⟩

def authority (id : ID) (key : Nat) (hints : List ID) (claims : JObj) : Entity :=
  ⟨id, key, hints, [("federation_entity", .obj [("organization_name", .str "Organization 5"), ("federation_fetch_endpoint", .str (id ++ "/fetch")),
    ("federation_list_endpoint", .str (id ++ "/list"))])], claims⟩

def rpMetadata : JObj := [("openid_relying_party", .obj [("client_registration_types", strs ["automatic"])])]

def opMetadata (id : ID) (scopes : List String) : JObj :=
  [("openid_provider", .obj [("issuer", .str id), ("client_registration_types_supported", strs ["automatic"]), ("scopes_supported", strs scopes)])]

def rp1 := "https://rp1.example.com"
def op1 := "https://op1.example.com"
def op2 := "https://op2.example.com"
def op3 := "https://op3.example.com"
def proxy := "https://proxy.example.org"
def ia1 := "https://ia1.example.com"
def ia2 := "https://ia2.example.com"
def ta1 := "https://ta.example.com"
def ta2 := "https://ta.foundation.example.org"
def taRemove := "https://ta.foundation.example.org/remove"
def taRemoveCrit := "https://ta.foundation.example.org/remove/crit"
def taPathLen := "https://ta.foundation.example.org/constraints/path-len"
def taNaming := "https://ta.foundation.example.org/constraints/naming"
def taTypes := "https://ta.foundation.example.org/constraints/entity-type"

def rpPolicy (attributes : JObj) : String × JV := ("metadata_policy", .obj [("openid_relying_party", .obj attributes)])
def addContact (c : String) : String × JV := ("contacts", .obj [("add", .str c)])
def removing : String × JV := ("client_registration_types", .obj [("essential", .bool true), ("remove", .str "explicit")])

/-- The entities, with the authority hints in the order in which `init` registers subordinates (trustchainfilter_test.go:150-167). -/
def entities : List Entity := [
  leaf rp1 1 [ia1, ia2] rpMetadata,
  leaf op1 2 [ia1, ia2] (opMetadata op1 ["openid", "profile", "email", "address"]),
  leaf op2 3 [ia2] (opMetadata op2 ["openid", "profile"]),
  leaf op3 4 [ia1] (opMetadata op3 ["openid", "profile", "email"]),
  leaf proxy 5 [ia1] (rpMetadata ++ opMetadata proxy ["openid", "profile", "email"]),
  authority ia1 6 [ia2, ta1] [],
  authority ia2 7 [ta1, ta2, taRemove, taRemoveCrit, taPathLen, taTypes, taNaming] [rpPolicy [addContact "ia@example.org"]],
  authority ta1 8 [] [],
  authority ta2 9 [] [rpPolicy [addContact "ta@foundation.example.org", ("client_registration_types", .obj [("essential", .bool true)])]],
  authority taRemove 10 [] [rpPolicy [addContact "ta@foundation.example.org", removing]],
  authority taRemoveCrit 11 [] [rpPolicy [addContact "ta@foundation.example.org", removing], ("metadata_policy_crit", strs ["remove"])],
  authority taPathLen 12 [] [("constraints", .obj [("max_path_length", .num 1)])],
  authority taNaming 13 [] [("constraints", .obj [("naming_constraints", .obj [("permitted", strs [".example.com"]), ("excluded", strs ["op2.example.com"])])])],
  authority taTypes 14 [] [("constraints", .obj [("allowed_entity_types", strs ["openid_provider"])])]]

def entity (id : ID) : Option Entity := entities.find? (fun e => e.id == id)

/-- A signed statement of `e` with the given claims besides `iss`, `iat` and `exp`, holding the given keys. -/
def Entity.stmt (e : Entity) (claims : JObj) (keys : Keys) : Option Stmt :=
  (ESPayload.read codec (fun _ v => some v) ([("iss", .str e.id), ("iat", .num 1000), ("exp", .num 1300)] ++ claims)).map
    (fun p => { p.toStmt numbering (some e.key) with jwks := keys })

def Entity.configuration (e : Entity) : Option Stmt :=
  e.stmt ([("sub", .str e.id), ("authority_hints", strs e.hints), ("metadata", .obj e.metadata)] ++ e.claims) (some [e.key])

def Entity.about (e : Entity) (sub : ID) : Option Stmt :=
  e.stmt (("sub", .str sub) :: e.claims) (match entity sub with
    | some s => if s.hints.contains e.id then some [s.key] else none
    | none => none)

/-- The host of an `https` URL. -/
def hostOf (id : ID) : Option String := some (String.ofList ((id.toList.drop 8).takeWhile (· != '/')))

/-- The mocked HTTP servers, at second 1010. -/
def world : World where
  start := fun id => (entity id).bind Entity.configuration
  ec := fun _ id => (entity id).bind Entity.configuration
  fetch := fun _ ep sub _ => (entities.find? (fun e => e.id ++ "/fetch" == ep)).bind (fun e => e.about sub)
  nowEC := fun _ => 1010000000000
  nowSub := fun _ => 1010000000000
  host := hostOf
  sig := fun ks n => ks.contains n

def anchor (id : ID) : Anchor := ⟨id, (entity id).map (fun e => [e.key])⟩

/-- A chain through the given entities up to the anchor, as the tests write them down (trustchainfilter_test.go:186-282). -/
def chainOf : List ID → Option Chain
  | [] => none
  | id :: rest => do
      let s ← (entity id).bind Entity.configuration
      let c ← up id rest
      some (s :: c)
where
  up (sub : ID) : List ID → Option Chain
    | [] => do
        let s ← (entity sub).bind Entity.configuration
        some [s]
    | id :: rest => do
        let s ← (entity id).bind (fun e => e.about sub)
        let c ← up id rest
        some (s :: c)

def issuers (c : Chain) : List ID := c.map Stmt.iss

/-- `compareTrustChains` (trustchainfilter_test.go:318-342); nil and empty lists are not told apart. `expected` names the entities from the leaf to the anchor. -/
def sameChains (cs : List Chain) (expected : List (List ID)) : Bool :=
  cs.length == expected.length && cs.all (fun c => expected.any (fun e => issuers c == e ++ e.getLast?.toList))
    && expected.all (fun e => cs.any (fun c => issuers c == e ++ e.getLast?.toList))

def resolvesTo (anchors : List ID) (start : ID) (expected : List (List ID)) : Bool :=
  match Resolver.validChains world 10 ⟨anchors.map anchor, start, []⟩ with
  | .ok (some cs) => sameChains cs expected
  | _ => false

def ta1Chains : List (List ID) := [[rp1, ia1, ta1], [rp1, ia1, ia2, ta1], [rp1, ia2, ta1]]
def ta2Chains : List (List ID) := [[rp1, ia1, ia2, ta2], [rp1, ia2, ta2]]
def allChains : List (List ID) := [[rp1, ia1, ta1], [rp1, ia1, ia2, ta1], [rp1, ia1, ia2, ta2], [rp1, ia2, ta2], [rp1, ia2, ta1]]
def ia1Chains : List (List ID) := [[rp1, ia1, ta1], [rp1, ia1, ia2, ta1], [rp1, ia1, ia2, ta2]]
def ia2Chains : List (List ID) := [[rp1, ia2, ta2], [rp1, ia2, ta1]]

/-! ## TestTrustResolver_ResolveToValidChains (trustresolver_test.go:29-279) -/

set_option maxRecDepth 10000 in
example : resolvesTo [ta1, ta2] "" [] = true := by decide +kernel
set_option maxRecDepth 10000 in
example : resolvesTo [] rp1 [] = true := by decide +kernel
set_option maxRecDepth 10000 in
example : resolvesTo [ta1] rp1 ta1Chains = true := by decide +kernel
set_option maxRecDepth 10000 in
example : resolvesTo [ta2] rp1 ta2Chains = true := by decide +kernel
set_option maxRecDepth 10000 in
example : resolvesTo [ta1, ta2] rp1 allChains = true := by decide +kernel
set_option maxRecDepth 10000 in
example : resolvesTo [ta1] proxy [[proxy, ia1, ta1], [proxy, ia1, ia2, ta1]] = true := by decide +kernel
set_option maxRecDepth 10000 in
example : resolvesTo [taPathLen] op2 [[op2, ia2, taPathLen]] = true := by decide +kernel
set_option maxRecDepth 10000 in
example : resolvesTo [taPathLen] op1 [[op1, ia2, taPathLen]] = true := by decide +kernel
set_option maxRecDepth 10000 in
example : resolvesTo [taPathLen] op3 [] = true := by decide +kernel
set_option maxRecDepth 10000 in
example : resolvesTo [taTypes] op2 [[op2, ia2, taTypes]] = true := by decide +kernel
set_option maxRecDepth 10000 in
example : resolvesTo [taTypes] rp1 [] = true := by decide +kernel
set_option maxRecDepth 10000 in
example : resolvesTo [taNaming] op2 [] = true := by decide +kernel
set_option maxRecDepth 10000 in
example : resolvesTo [taNaming] op3 [[op3, ia1, ia2, taNaming]] = true := by decide +kernel
set_option maxRecDepth 10000 in
example : resolvesTo [taNaming] op1 [[op1, ia2, taNaming], [op1, ia1, ia2, taNaming]] = true := by decide +kernel
set_option maxRecDepth 10000 in
example : resolvesTo [taNaming] proxy [] = true := by decide +kernel

/-! ## TestTrustResolver_ResolveWithType (trustresolver_test.go:281-402) -/

/-- There is a chain, and the metadata of every chain has exactly the given types. -/
def resolvesWith (types included : List String) : Bool :=
  match Resolver.validChains world 10 ⟨[anchor ta1], proxy, types⟩ with
  | .ok (some cs) => !cs.isEmpty && cs.all (fun c => match chainMetadata c with
      | .ok (some m) => EType.all.all (fun t => (m.known t).isSome == included.contains t.tag) && m.extra.isNone
      | _ => false)
  | _ => false

set_option maxRecDepth 10000 in
example : resolvesWith [] ["federation_entity", "openid_provider", "openid_relying_party"] = true := by decide +kernel
set_option maxRecDepth 10000 in
example : resolvesWith ["openid_provider"] ["openid_provider"] = true := by decide +kernel
set_option maxRecDepth 10000 in
example : resolvesWith ["openid_relying_party"] ["openid_relying_party"] = true := by decide +kernel
set_option maxRecDepth 10000 in
example : resolvesWith ["openid_provider", "openid_relying_party"] ["openid_provider", "openid_relying_party"] = true := by decide +kernel

/-! ## TestTrustChain_Metadata and TestTrustChain_MetaDataPolicyCrit (trustchain_test.go:100-232)

In Go the expected metadata is the very object in the chain and thus always equal to what is computed in place. Here it is compared with the contacts that the test adds to it. -/

/-- The contacts of the relying party in the metadata of the chain; an error gives `none`. -/
def contacts (ids : List ID) : Option (Option Val) :=
  match chainOf ids with
  | none => none
  | some c => match chainMetadata c with
    | .ok (some m) => some ((m.known .rp).bind (fun r => (r.fields.find? (fun f => f.tag == "contacts")).map (fun f => asWritten f.val)))
    | _ => none

example : (match chainMetadata [] with | .error .error => true | _ => false) = true := by decide +kernel
set_option maxRecDepth 10000 in
example : contacts [rp1] = some (some (.slice .any false [])) := by decide +kernel
set_option maxRecDepth 10000 in
example : contacts [rp1, ia1, ta1] = some (some (.slice .any false [])) := by decide +kernel
set_option maxRecDepth 10000 in
example : contacts [rp1, ia2, ta1] = some (some (.slice .any false [.str "ia@example.org"])) := by decide +kernel
set_option maxRecDepth 10000 in
example : contacts [rp1, ia2, ta2] = some (some (.slice .any false [.str "ia@example.org", .str "ta@foundation.example.org"])) := by decide +kernel
set_option maxRecDepth 10000 in
example : contacts [rp1, ia2, taRemove] = some (some (.slice .any false [.str "ia@example.org", .str "ta@foundation.example.org"])) := by decide +kernel
set_option maxRecDepth 10000 in
example : (chainOf [rp1, ia2, taRemoveCrit]).isSome = true ∧ contacts [rp1, ia2, taRemoveCrit] = none := by decide +kernel

/-! ## Filters (trustchainfilter_test.go:344-652) -/

def chainsOf (l : List (List ID)) : List Chain := l.filterMap chainOf

def filtersTo (fs : List ChainsFilter) (input expected : List (List ID)) : Bool :=
  (chainsOf input).length == input.length && sameChains (filterChains fs (chainsOf input)) expected

set_option maxRecDepth 10000 in
example : filtersTo [filterTrustAnchor ta2] allChains ta2Chains && filtersTo [filterTrustAnchor ta1] allChains ta1Chains
    && filtersTo [filterTrustAnchor ta1] ta1Chains ta1Chains && filtersTo [filterTrustAnchor ta2] ta1Chains []
    && filtersTo [filterTrustAnchor "https://ta.unknown.com"] allChains []
    && filtersTo [filterTrustAnchor ta1] ia1Chains [[rp1, ia1, ta1], [rp1, ia1, ia2, ta1]]
    && filtersTo [filterTrustAnchor ta2] ia1Chains [[rp1, ia1, ia2, ta2]] = true := by decide +kernel

set_option maxRecDepth 10000 in
example : filtersTo [filterMinPathLength] allChains [[rp1, ia1, ta1], [rp1, ia2, ta2], [rp1, ia2, ta1]]
    && filtersTo [filterMinPathLength] ta1Chains [[rp1, ia1, ta1], [rp1, ia2, ta1]]
    && filtersTo [filterMinPathLength] ta2Chains [[rp1, ia2, ta2]]
    && filtersTo [filterMinPathLength] ia1Chains [[rp1, ia1, ta1]]
    && filtersTo [filterMinPathLength] ia2Chains ia2Chains = true := by decide +kernel

set_option maxRecDepth 10000 in
example : filtersTo [filterMaxPathLength 3] allChains allChains && filtersTo [filterMaxPathLength 2] allChains allChains
    && filtersTo [filterMaxPathLength 1] allChains [[rp1, ia2, ta2], [rp1, ia2, ta1], [rp1, ia1, ta1]]
    && filtersTo [filterMaxPathLength 0] allChains [] = true := by decide +kernel

set_option maxRecDepth 10000 in
example : filtersTo [filterTrustAnchor ta2, filterMinPathLength] allChains [[rp1, ia2, ta2]]
    && filtersTo [filterMinPathLength, filterTrustAnchor ta2] allChains [[rp1, ia2, ta2]]
    && filtersTo [filterTrustAnchor ta1, filterMinPathLength] allChains [[rp1, ia1, ta1], [rp1, ia2, ta1]]
    && filtersTo [filterTrustAnchor ta1, filterMinPathLength] ta1Chains [[rp1, ia1, ta1], [rp1, ia2, ta1]]
    && filtersTo [filterTrustAnchor ta2, filterMinPathLength] ta1Chains []
    && filtersTo [filterTrustAnchor "https://ta.unknown.com", filterMinPathLength] allChains []
    && filtersTo [filterMinPathLength, filterTrustAnchor "https://ta.unknown.com"] allChains []
    && filtersTo [filterTrustAnchor ta1, filterMinPathLength] ia1Chains [[rp1, ia1, ta1]]
    && filtersTo [filterTrustAnchor ta2, filterMinPathLength] ia1Chains [[rp1, ia1, ia2, ta2]]
    && filtersTo [filterMinPathLength, filterTrustAnchor ta2] ia1Chains [] = true := by decide +kernel

/-! ## Expiry (trustchain_test.go:11-98) -/

def expiring (seconds : List Int) : Chain :=
  seconds.map (fun s => ⟨"", "", Time.zero, s * 1000000000, none, [], none, none, [], [], none, none⟩)

example : chainExp (expiring []) = Time.zero ∧ chainExp (expiring [5]) = 5000000000 ∧ chainExp (expiring [5, 10, 100]) = 5000000000
    ∧ chainExp (expiring [10, 5, 100]) = 5000000000 := by decide

end Oidfed.Validation
