import Verif.Model.Sessions
import Verif.Spec.Cache
/-!
# What a caller expects of the methods of a resolver, whoever else uses the cache
-/

namespace Oidfed.Spec

/-- A method that has returned did to the object, and returned, what it does and returns for the only caller there is. -/
def AsIfAlone (s : Session) : Prop :=
  match s.method with
  | none => s.ret = none
  | some .resolve => s.before.resolve s.world s.fuel = .ok (some s.obj) ∧ s.ret = none
  | some .verify => s.obj = s.before.verifySignatures s.world ∧ s.ret = none
  | some .chains => s.obj = s.before ∧ s.ret = some s.before.chains
  | some .call => ∃ cs, s.before.call s.world s.fuel = .ok (some (cs, s.obj)) ∧ s.ret = some cs

/-- All signatures of a chain are right: each statement below the top pair verifies with the keys in the next one, and the top pair with the keys that the configured
anchor stands for. -/
def FullyVerified (sig : SigOracle) (A : List Anchor) (c : Chain) : Prop :=
  (∀ k s next, k + 2 < c.length → c[k]? = some s → c[k+1]? = some next → Signed sig next.jwks s) ∧ VerifiedAgainst sig A c

end Oidfed.Spec
