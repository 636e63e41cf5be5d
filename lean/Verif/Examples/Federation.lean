import Verif.Model.Resolver
/-!
# A small concrete federation

Used as the non-vacuity witness for the resolver theorems: leaf `l`, intermediates `i` and `j` (both superiors of `l`), anchor `t`,
and a cycle (`j` also names `l` as its authority).
-/

namespace Oidfed.Ex
open Oidfed

/-- metadata of an authority with a fetch endpoint -/
def fedMeta (ep : String) : Metadata :=
  ⟨fun t => match t with
    | .fed => some ⟨[⟨"FederationFetchEndpoint", "federation_fetch_endpoint", .str, .str ep⟩], ["FederationFetchEndpoint"], []⟩
    | _ => none, none⟩

/-- metadata of the leaf: a relying party, and an entity type the library does not know -/
def rpMeta : Metadata :=
  ⟨fun t => match t with
    | .rp => some ⟨[⟨"ClientName", "client_name", .str, .str "n"⟩], ["ClientName"], []⟩
    | _ => none, some [("wallet", .str "x")]⟩

def mk (iss sub : ID) (keys : Keys) (raw : Nat) : Stmt where
  iss := iss
  sub := sub
  iat := 0
  exp := 100
  jwks := keys
  hints := []
  metadata := none
  policy := none
  policyCrit := []
  crit := []
  constraints := none
  raw := some raw

def leafEC : Stmt := { mk "l" "l" (some [1]) 1 with hints := ["i", "j"], metadata := some rpMeta }
def iEC : Stmt := { mk "i" "i" (some [2]) 2 with hints := ["t"], metadata := some (fedMeta "i/fetch") }
def jEC : Stmt := { mk "j" "j" (some [2]) 2 with hints := ["l", "t"], metadata := some (fedMeta "j/fetch") }
def tEC : Stmt := { mk "t" "t" (some [3]) 3 with metadata := some (fedMeta "t/fetch") }
def cons : Constraints := ⟨some 1, some ⟨some [".org"], ["bad.org"]⟩, some ["openid_relying_party"]⟩

def ecOf : ID → Option Stmt
  | "l" => some leafEC
  | "i" => some iEC
  | "j" => some jEC
  | "t" => some tEC
  | _ => none

def fetchOf : String → ID → Option Stmt
  | "i/fetch", "l" => some (mk "i" "l" (some [1]) 2)
  | "j/fetch", "l" => some (mk "j" "l" (some [1]) 2)
  | "t/fetch", "i" => some { mk "t" "i" (some [2]) 3 with constraints := some cons }
  | "t/fetch", "j" => some { mk "t" "j" (some [2]) 3 with constraints := some cons }
  | _, _ => none

def hostOf : ID → Option String
  | "l" => some "rp.org"
  | "i" => some "i.org"
  | "j" => some "j.org"
  | "t" => some "t.org"
  | _ => none

/-- JWT number `n` verifies under the key sets containing key `n`. -/
def sigOf : SigOracle := fun ks r => ks.contains r

def W : World where
  start := ecOf
  ec := fun _ => ecOf
  fetch := fun _ ep sub _ => fetchOf ep sub
  nowEC := fun _ => 50
  nowSub := fun _ => 50
  host := hostOf
  sig := sigOf

def R : Resolver := ⟨[⟨"t", some [3]⟩], "l", []⟩

/-- the chain through `i` -/
def chainI : Chain :=
  [leafEC, mk "i" "l" (some [1]) 2, { mk "t" "i" (some [2]) 3 with constraints := some cons }, tEC]
/-- the chain through `j` -/
def chainJ : Chain :=
  [leafEC, mk "j" "l" (some [1]) 2, { mk "t" "j" (some [2]) 3 with constraints := some cons }, tEC]

theorem run : R.chainsNoMeta W 5 = .ok (some [chainI, chainJ]) := by rfl

end Oidfed.Ex
