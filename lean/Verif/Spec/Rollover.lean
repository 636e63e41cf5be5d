import Verif.Spec.Federation
import Verif.Spec.Policy
/-!
# Federations in which statements are renewed and keys change
-/

namespace Oidfed.Spec
open Oidfed

/-- `s'` states the same as `s`, except for its lifetime and the keys, and may be signed differently. -/
def Rekeyed (s' s : Stmt) : Prop := ∃ iat exp jwks raw, s' = { s with iat := iat, exp := exp, jwks := jwks, raw := raw }

/-- `s` in `W` and `s'` in `W'` are the answers to the same request. -/
inductive SamePlace (W W' : World) : Stmt → Stmt → Prop where
  | start {id : ID} {s s' : Stmt} : W.start id = some s → W'.start id = some s' → SamePlace W W' s s'
  | ec {p : Pos} {id : ID} {s s' : Stmt} : W.ec p id = some s → W'.ec p id = some s' → SamePlace W W' s s'
  | fetch {p : Pos} {u : String} {sub iss : ID} {s s' : Stmt} : W.fetch p u sub iss = some s → W'.fetch p u sub iss = some s' → SamePlace W W' s s'

/-- What is served in `W` is served in `W'` too, where only lifetimes, keys and signatures may have changed. What was valid when it was checked (by the clock in `W`) still is (by the clock in `W'`). -/
structure KeysChanged (W' W : World) : Prop where
  start : ∀ id s, W.start id = some s → ∃ s', W'.start id = some s' ∧ Rekeyed s' s
  ec : ∀ p id s, W.ec p id = some s → ∃ s', W'.ec p id = some s' ∧ Rekeyed s' s
  fetch : ∀ p u sub iss s, W.fetch p u sub iss = some s → ∃ s', W'.fetch p u sub iss = some s' ∧ Rekeyed s' s
  ec_time : ∀ p id s s', W.ec p id = some s → W'.ec p id = some s' → InWindow (W.nowEC p) s → InWindow (W'.nowEC p) s'
  sub_time : ∀ p u sub iss s s', W.fetch p u sub iss = some s → W'.fetch p u sub iss = some s' → InWindow (W.nowSub p) s → InWindow (W'.nowSub p) s'
  host : W'.host = W.host
  sig : W'.sig = W.sig

/-- A statement that could be verified with the keys in a statement about its issuer still can, when both are taken in their new form. -/
def StillVerify (W' W : World) : Prop :=
  ∀ s s' t t', SamePlace W W' s s' → SamePlace W W' t t' → t.sub = s.iss → Signed W.sig t.jwks s → Signed W.sig t'.jwks s'

/-- The same trust anchors, and those with configured keys still have some. Statements of an anchor that could be verified with its configured keys still can. -/
def AnchorsStillVerify (W' W : World) (A' A : List Anchor) : Prop :=
  Each (fun a' a : Anchor => a'.id = a.id ∧ (a.jwks = none → a'.jwks = none) ∧ ∀ ks, a.jwks = some ks → ∃ ks', a'.jwks = some ks' ∧
    ∀ s s', SamePlace W W' s s' → s.iss = a.id → Signed W.sig (some ks) s → Signed W.sig (some ks') s') A' A

/-- The statement was signed with key `n`: it verifies with every key set that has this key. -/
def SignedWith (sig : SigOracle) (n : Nat) (s : Stmt) : Prop := ∃ r, s.raw = some r ∧ ∀ ks, n ∈ ks → sig ks r = true

/-- The entity `x` signs with the key `n`, which is among the keys published for it wherever right keys were published before; it does not matter how it signed before, and which other keys are
published. For others nothing changed: their statements verify as before, and the same keys are published for them. -/
structure RolledOver (W' W : World) (A' A : List Anchor) (x : ID) (n : Nat) : Prop where
  changed : KeysChanged W' W
  signed : ∀ s s', SamePlace W W' s s' → s.iss = x → SignedWith W.sig n s'
  published : ∀ t t', SamePlace W W' t t' → t.sub = x → (∃ s s', SamePlace W W' s s' ∧ s.iss = x ∧ Signed W.sig t.jwks s) → ∃ ks, t'.jwks = some ks ∧ n ∈ ks
  others_signed : ∀ s s', SamePlace W W' s s' → s.iss ≠ x → ∀ ks, Signed W.sig ks s → Signed W.sig ks s'
  others_keys : ∀ t t', SamePlace W W' t t' → t.sub ≠ x → t'.jwks = t.jwks
  anchors : Each (fun a' a : Anchor => a'.id = a.id ∧ (a.id ≠ x → a'.jwks = a.jwks) ∧ (a.id = x → a.jwks = none → a'.jwks = none) ∧
    (a.id = x → a.jwks ≠ none → ∃ ks, a'.jwks = some ks ∧ n ∈ ks)) A' A

end Oidfed.Spec
