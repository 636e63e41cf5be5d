import Verif.Spec.Federation
import Verif.Spec.Policy
import Verif.Spec.MarkSeparate
import Verif.Model.Jws
/-!
# Federations in which further keys were published
-/

namespace Oidfed.Spec
open Oidfed

/-- What verifies with some keys verifies with more keys (key IDs are not used twice). -/
def KeysMayGrow (sig : SigOracle) : Prop := ∀ (ks ks' : List Nat) (n : Nat), (∀ k ∈ ks, k ∈ ks') → sig ks n = true → sig ks' n = true

/-- All keys of `x` are in `x'`, if `x` is there at all. -/
def MoreKeys (x' x : Keys) : Prop := ∀ ks, x = some ks → ∃ ks', x' = some ks' ∧ ∀ k ∈ ks, k ∈ ks'

/-- `s'` is the statement `s`, made anew with further keys in it and signed as before: it verifies with every key set that verifies `s`. -/
structure Republished (sig : SigOracle) (s' s : Stmt) : Prop where
  same : ∃ jwks raw, s' = { s with jwks := jwks, raw := raw }
  keys : MoreKeys s'.jwks s.jwks
  signed : ∀ ks, Signed sig ks s → Signed sig ks s'

/-- In `W'` every statement that is served in `W` is served too, with further keys. -/
structure KeysAdded (W' W : World) : Prop where
  start : ∀ id s, W.start id = some s → ∃ s', W'.start id = some s' ∧ Republished W.sig s' s
  ec : ∀ p id s, W.ec p id = some s → ∃ s', W'.ec p id = some s' ∧ Republished W.sig s' s
  fetch : ∀ p u sub iss s, W.fetch p u sub iss = some s → ∃ s', W'.fetch p u sub iss = some s' ∧ Republished W.sig s' s
  nowEC : W'.nowEC = W.nowEC
  nowSub : W'.nowSub = W.nowSub
  host : W'.host = W.host
  sig : W'.sig = W.sig

/-- The same trust anchors; those with configured keys may have further ones. -/
def AnchorKeysAdded (A' A : List Anchor) : Prop := Each (fun a' a : Anchor => a'.id = a.id ∧ (a.jwks = none → a'.jwks = none) ∧ MoreKeys a'.jwks a.jwks) A' A

/-- No key ID is used twice in a set of keys. -/
def DistinctKids (ks : List JKey) : Prop := ∀ k ∈ ks, ∀ k' ∈ ks, k.kid = k'.kid → k = k'

/-- The same trust anchor for trust marks of a type, where further issuers may be allowed, and the owner of the type, if there is one, may have further keys. -/
structure MarksKeysAdded (ta' ta : MarkAnchor) (type : String) : Prop where
  issuers : ∀ l', issuersFor ta' type = some l' → ∃ l, issuersFor ta type = some l ∧ ∀ x ∈ l, x ∈ l'
  no_owner : AMap.get ta.owners type = none → AMap.get ta'.owners type = none
  owner : ∀ o, AMap.get ta.owners type = some o → ∃ o', AMap.get ta'.owners type = some o' ∧ o'.id = o.id ∧ MoreKeys o'.jwks o.jwks

end Oidfed.Spec
